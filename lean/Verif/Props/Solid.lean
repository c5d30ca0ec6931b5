import Verif.Spec.Solid
import Verif.Props.Shortcut
import Verif.Props.Outside

/-! # C119, C120: the solid and what is printed of it -/
namespace Verif
open Verif.Go Verif.Model Verif.Spec Verif.Spec.GCode

theorem near_surface {d : ℚ} (hd : 0 ≤ d) {fs : List (Tri Vec3)} {z : Int} {q : ℚ × ℚ} (h : ¬ FarFromSurface d fs z q) : ∃ y, OnSurface fs z y ∧ NearPt d q y := by
  unfold FarFromSurface FarFrom at h
  push Not at h
  obtain ⟨f, hf, s, hs, s', hs', h1, h2, t, t0, t1, hle⟩ := h
  refine ⟨lineAt (meetPoint z s) (meetPoint z s') t, ⟨f, hf, s, hs, s', hs', h1, h2, t, t0, t1, rfl⟩, hd, ?_⟩
  unfold lineAt
  simp only
  nlinarith

theorem farFromSurface_mono {d e : ℚ} {fs : List (Tri Vec3)} {z : Int} {q : ℚ × ℚ} (h : FarFromSurface d fs z q) (he : 0 ≤ e) (hde : e ≤ d) : FarFromSurface e fs z q :=
  fun f hf s hs s' hs' h1 h2 => farFrom_mono (h f hf s hs s' hs' h1 h2) he hde

theorem onSide_small {fs : List (Tri Vec3)} (hs : SmallSurface fs) {z : Int} {x : Pt} (h : ∃ f ∈ fs, ∃ s ∈ faceSides f, (Down z s ∨ Up z s) ∧ OnSide z s x) : |x.x| < 2 ^ 26 ∧ |x.y| < 2 ^ 26 := by
  obtain ⟨f, hf, s, hsf, -, ⟨-, hx1, hx2⟩, -, hy1, hy2⟩ := h
  have hsmall := hs f hf
  have key : ∀ v w : Vec3, |v.x| < 2 ^ 26 ∧ |v.y| < 2 ^ 26 → |w.x| < 2 ^ 26 ∧ |w.y| < 2 ^ 26 → s = (v, w) → |x.x| < 2 ^ 26 ∧ |x.y| < 2 ^ 26 := by
    rintro v w ⟨a1, a2⟩ ⟨b1, b2⟩ rfl
    rw [abs_lt] at a1 a2 b1 b2 ⊢
    rw [abs_lt]
    simp only at hx1 hx2 hy1 hy2
    omega
  simp only [List.mem_cons, List.not_mem_nil, or_false, forall_eq_or_imp, forall_eq] at hsmall
  obtain ⟨ha, hb, hc⟩ := hsmall
  unfold faceSides at hsf
  simp only [List.mem_cons, List.not_mem_nil, or_false] at hsf
  rcases hsf with e | e | e
  · exact key _ _ ha hb e
  · exact key _ _ hb hc e
  · exact key _ _ hc ha e

/-- Simplified outlines. -/
theorem simplified_paths {paths simple : Paths} (hsmall : ∀ p ∈ paths, ∀ x ∈ p, |x.x| < 2 ^ 26 ∧ |x.y| < 2 ^ 26) (hsimple : paths.mapM (fun p => simplifyM p (-1) (-1)) = .ok simple) {k : Nat}
    (hk : Removed k paths simple) {D : ℚ} (hD : 0 ≤ D) {q : ℚ × ℚ} (hf : ∀ p ∈ paths, FarFromPath (D + 5 * k) p q) :
    (∀ p ∈ simple, FarFromPath D p q) ∧ (InsidePaths simple q ↔ InsidePaths paths q) := by
  have h := mapM_ok.1 hsimple
  have hz : List.Forall₂ (fun p r => FarFromPath D r q ∧ (Encloses r q ↔ Encloses p q)) paths simple := by
    rw [List.forall₂_iff_get] at h ⊢
    refine ⟨h.1, fun i h1 h2 => ?_⟩
    have hr := h.2 i h1 h2
    have hki := (List.forall₂_iff_get.1 hk).2 i h1 h2
    have hmem : paths.get ⟨i, h1⟩ ∈ paths := List.get_mem _ _
    obtain ⟨r, hr', hkeep⟩ := C119_int64 (paths.get ⟨i, h1⟩) (-1) (-1) (hsmall _ hmem) (by norm_num) (by norm_num)
    rw [hr'] at hr
    obtain rfl := Except.ok.inj hr
    have hsub : (simple.get ⟨i, h2⟩).length ≤ (paths.get ⟨i, h1⟩).length := by
      obtain ⟨r', h3, h4⟩ := C08_int64 (paths.get ⟨i, h1⟩) (-1) (-1)
      rw [hr'] at h3
      obtain rfl := Except.ok.inj h3
      exact h4.length_le
    have hkq : ((paths.get ⟨i, h1⟩).length : ℚ) ≤ (simple.get ⟨i, h2⟩).length + k := by exact_mod_cast hki
    have hsq : ((simple.get ⟨i, h2⟩).length : ℚ) ≤ (paths.get ⟨i, h1⟩).length := by exact_mod_cast hsub
    exact hkeep D q hD fun s hs => farFrom_mono (hf _ hmem s hs) (by linarith) (by linarith)
  constructor
  · intro p hp
    obtain ⟨i, hi, rfl⟩ := List.getElem_of_mem hp
    exact ((List.forall₂_iff_get.1 hz).2 i (by rw [hz.length_eq]; exact hi) hi).1
  · rw [insidePaths_iff, insidePaths_iff]
    have : simple.map (pathCross q) = paths.map (pathCross q) := by
      clear h hk hsmall hsimple hf
      induction hz with
      | nil => rfl
      | @cons a b _ _ hab _ ih =>
        rw [List.map_cons, List.map_cons, ih]
        congr 1
        have h2 := hab.2
        rw [encloses_iff, encloses_iff] at h2
        have e1 := zmod2_ite (pathCross q b)
        rw [e1.symm, ← zmod2_ite (pathCross q a)]
        rw [ite_congr (propext h2) (fun _ => rfl) (fun _ => rfl)]
    rw [this]

theorem sum_flip {a b : ZMod 2} : a = 1 ↔ (a + b = 1 ↔ ¬ b = 1) := by revert a b; decide

/-- What a layer of the result of the slicer is made from. -/
theorem sliced_layer {lib : ClipperLib} {o : Options} {om : OptModel} {segs : List (Option SliceLayer)} (h : sliceSegments o om = .ok segs) {n : Nat} {layer : SliceLayer} (hn : segs[n]? = some (some layer))
    {paths simple : Paths} (hpaths : makePolygons o om layer = .ok paths) (hsimple : paths.mapM (fun p => simplifyM p (-1) (-1)) = .ok simple)
    {ls : List Layer} (hls : slice lib o om = .ok ls) {l : Layer} (hl : ls[n]? = some l) :
    (simple = [] ∧ l.parts = []) ∨ ∃ tree, lib.execute .union (clipperPaths simple) [] = some tree ∧ l.parts = polyTreeToLayerParts tree := by
  simp only [slice, h, bind, Except.bind] at hls
  have hf := mapM_ok.1 hls
  rw [List.forall₂_iff_get] at hf
  obtain ⟨hnl, hne⟩ := List.getElem?_eq_some_iff.1 hn
  obtain ⟨hnl', hne'⟩ := List.getElem?_eq_some_iff.1 hl
  have hfin := hf.2 n hnl hnl'
  simp only [List.get_eq_getElem, hne, hne', finishLayer, hpaths, bind, Except.bind, ClipperLib.generateLayerParts, hsimple] at hfin
  by_cases hz : simple.length = 0
  · rw [if_pos hz] at hfin
    cases hfin
    exact .inl ⟨List.length_eq_zero_iff.1 hz, rfl⟩
  · rw [if_neg hz] at hfin
    simp only [pure, Except.pure] at hfin
    cases he : lib.execute .union (clipperPaths simple) [] with
    | none => rw [he] at hfin; cases hfin
    | some tree =>
      rw [he] at hfin
      cases hfin
      exact .inr ⟨tree, rfl, rfl⟩

theorem asPath_clipperPath (p : Path) : asPath (clipperPath p) = p := by
  unfold asPath clipperPath
  rw [List.map_map]
  exact List.map_id' _

/-- The outlines of a layer before and after `Simplify`. -/
theorem layer_outlines (o : Options) (m : Mesh) (om : OptModel) (hom : optimize o m = .ok om) (fs : List (Tri Vec3)) (hfs : om.faces.mapM om.facePoints = .ok fs)
    (hclosed : ClosedSurface fs) (hsmall : SmallSurface fs) (hmeld : 2 ≤ o.slicing.meldDistance) (ht : 0 < o.print.layerThickness)
    (segs : List (Option SliceLayer)) (h : sliceSegments o om = .ok segs) (n : Nat) (layer : SliceLayer) (hn : segs[n]? = some (some layer))
    (htip : NoTip (heightOf o.print.initialLayerThickness o.print.layerThickness n) fs)
    (hone : ∀ a b b', Spec.Follows o.slicing.meldDistance om layer a b → Spec.Follows o.slicing.meldDistance om layer a b' → b = b') :
    ∃ paths simple short, makePolygons o om layer = .ok paths ∧ paths.mapM (fun p => simplifyM p (-1) (-1)) = .ok simple ∧
      (∀ p ∈ short, pathLength p ≤ o.slicing.finishPolygonSnapDistance) ∧
      (∀ D q, 0 ≤ D → FarFromSurface (D + 2) fs (heightOf o.print.initialLayerThickness o.print.layerThickness n) q → ∀ p ∈ short, FarFromPath D p q) ∧
      ∀ k, Removed k paths simple → ∀ D q, 0 ≤ D → FarFromSurface (D + 5 * k + 2) fs (heightOf o.print.initialLayerThickness o.print.layerThickness n) q →
        (∀ p ∈ simple, FarFromPath D p q) ∧ (InsidePaths simple q ↔ (InsideSolid fs (heightOf o.print.initialLayerThickness o.print.layerThickness n) q ↔ ¬ InsidePaths short q)) := by
  obtain ⟨paths, short, hp, hs, hin, hfar, hon⟩ := C103_outlines o m om hom fs hfs hclosed hmeld ht segs h n layer hn htip hone
  obtain ⟨simple, hsimple⟩ : ∃ simple, paths.mapM (fun p => simplifyM p (-1) (-1)) = .ok simple := by
    have : ∀ ps : Paths, ∃ simple, ps.mapM (fun p => simplifyM p (-1) (-1)) = .ok simple := by
      intro ps
      induction ps with
      | nil => exact ⟨[], rfl⟩
      | cons p ps ih =>
        obtain ⟨r, hr⟩ := ih
        obtain ⟨r', hr', -⟩ := C08_int64 p (-1) (-1)
        exact ⟨r' :: r, by rw [List.mapM_cons, hr', hr]; rfl⟩
    exact this paths
  refine ⟨paths, simple, short, hp, hsimple, hs, fun D q hD hq p hp => hfar D q hD hq p (List.mem_append_right _ hp), fun k hk D q hD hq => ?_⟩
  have hk0 : (0 : ℚ) ≤ 5 * k := by positivity
  obtain ⟨h1, h2⟩ := simplified_paths (fun p hp x hx => onSide_small hsmall (hon p (List.mem_append_left _ hp) x hx)) hsimple hk hD
    fun p hp => hfar (D + 5 * k) q (by linarith) hq p (List.mem_append_left _ hp)
  refine ⟨h1, ?_⟩
  rw [h2, ← hin q (farFromSurface_mono hq (by norm_num) (by linarith)), insidePaths_iff, insidePaths_iff, insidePaths_iff, List.map_append, List.sum_append]
  exact sum_flip

/-- **C119** The parts of a layer are the cross-section of the solid: a point of the plane of the layer which is farther than `2 + 5 k + tol` µm away from the surface is in the region of the parts exactly if it is
inside of the solid and not enclosed by the outlines which are too short, or the other way around. Here, `k` is the largest number of points which `Simplify` removes from an outline. -/
theorem C119_region (o : Options) (m : Mesh) (om : OptModel) (hom : optimize o m = .ok om) (fs : List (Tri Vec3)) (hfs : om.faces.mapM om.facePoints = .ok fs)
    (hclosed : ClosedSurface fs) (hsmall : SmallSurface fs) (hmeld : 2 ≤ o.slicing.meldDistance) (ht : 0 < o.print.layerThickness)
    (segs : List (Option SliceLayer)) (h : sliceSegments o om = .ok segs) (n : Nat) (layer : SliceLayer) (hn : segs[n]? = some (some layer))
    (htip : NoTip (heightOf o.print.initialLayerThickness o.print.layerThickness n) fs)
    (hone : ∀ a b b', Spec.Follows o.slicing.meldDistance om layer a b → Spec.Follows o.slicing.meldDistance om layer a b' → b = b') :
    ∃ paths simple short, makePolygons o om layer = .ok paths ∧ paths.mapM (fun p => simplifyM p (-1) (-1)) = .ok simple ∧
      (∀ p ∈ short, pathLength p ≤ o.slicing.finishPolygonSnapDistance) ∧
      ∀ k, Removed k paths simple → ∀ lib tol, 0 ≤ tol → UnionKeeps lib tol → ∀ ls, slice lib o om = .ok ls → ∀ l, ls[n]? = some l →
        ∀ q, FarFromSurface (2 + 5 * k + tol) fs (heightOf o.print.initialLayerThickness o.print.layerThickness n) q →
          (q ∈ region enclosedBy l.parts ↔ (InsideSolid fs (heightOf o.print.initialLayerThickness o.print.layerThickness n) q ↔ ¬ InsidePaths short q)) ∧
          (o.slicing.finishPolygonSnapDistance < 2 ^ 26 - 1 →
            FarFromSurface (2 * max 0 o.slicing.finishPolygonSnapDistance + 2) fs (heightOf o.print.initialLayerThickness o.print.layerThickness n) q →
            (q ∈ region enclosedBy l.parts ↔ InsideSolid fs (heightOf o.print.initialLayerThickness o.print.layerThickness n) q)) := by
  obtain ⟨paths, simple, short, hp, hsimple, hs, hfar, hin⟩ := layer_outlines o m om hom fs hfs hclosed hsmall hmeld ht segs h n layer hn htip hone
  refine ⟨paths, simple, short, hp, hsimple, hs, fun k hk lib tol htol hlib ls hls l hl q hq => ?_⟩
  have hfar' := hq
  obtain ⟨h1, h2⟩ := hin k hk tol q htol (by rw [show tol + 5 * (k : ℚ) + 2 = 2 + 5 * k + tol by ring]; exact hq)
  have key : q ∈ region enclosedBy l.parts ↔ InsidePaths simple q := by
    rcases sliced_layer h hn hp hsimple hls hl with ⟨rfl, hparts⟩ | ⟨tree, htree, hparts⟩
    · rw [hparts]
      simp [region_nil, InsidePaths]
    · rw [hparts, region_polyTree, hlib _ _ htree q, evenOdd_enclosedBy]
      intro c hc
      obtain ⟨p, hpm, rfl⟩ := List.mem_map.1 hc
      rw [asPath_clipperPath]
      exact h1 p hpm
  rw [key, h2]
  refine ⟨Iff.rfl, fun hfin hq2 => ?_⟩
  have hD : (0 : ℚ) ≤ ((max 0 o.slicing.finishPolygonSnapDistance : Int) : ℚ) := by exact_mod_cast le_max_left _ _
  have hz : ¬ InsidePaths short q := by
    rw [insidePaths_iff]
    have : (short.map (pathCross q)).sum = 0 := by
      apply List.sum_eq_zero
      intro x hx
      obtain ⟨p, hp, rfl⟩ := List.mem_map.1 hx
      exact short_outline hfin (hs p hp) (hfar _ q (by linarith) hq2 p hp)
    rw [this]
    decide
  simp [hz]

theorem not_far_on {D : ℚ} {a b x : ℚ × ℚ} (h : FarFrom D a b x) (hx : OnSegment a b x) : False := by
  obtain ⟨t, h0, h1, e⟩ := hx
  have := h t h0 h1
  have e1 : x.1 = a.1 + t * (b.1 - a.1) := by rw [e]; rfl
  have e2 : x.2 = a.2 + t * (b.2 - a.2) := by rw [e]; rfl
  rw [← e1, ← e2, sub_self, sub_self] at this
  nlinarith [sq_nonneg D]

theorem pathLines_sides (p : Path) : pathLines false p = sidesOf p := by
  cases p with
  | nil => rfl
  | cons c l =>
    rw [sidesOf, show (1 : Nat) = 0 + 1 from rfl, List.rotate_cons_succ, List.rotate_zero]
    simp [pathLines]

theorem not_onPath_far {D : ℚ} {p : Path} {x : ℚ × ℚ} (h : FarFromPath D p x) : ¬ OnPath false p x := by
  intro ⟨a, b, hab, hx⟩
  rw [pathLines_sides] at hab
  have key : FarFrom D (exactPt a) (exactPt b) x := h (a, b) hab
  exact not_far_on key hx

/-- **C120** A point of the closed area of a part has a distance of at most `2 + 5 k + tol` µm from a point which is inside of the solid, on its surface, or enclosed by the outlines which are too short. -/
theorem C120_parts (o : Options) (m : Mesh) (om : OptModel) (hom : optimize o m = .ok om) (fs : List (Tri Vec3)) (hfs : om.faces.mapM om.facePoints = .ok fs)
    (hclosed : ClosedSurface fs) (hsmall : SmallSurface fs) (hmeld : 2 ≤ o.slicing.meldDistance) (ht : 0 < o.print.layerThickness)
    (segs : List (Option SliceLayer)) (h : sliceSegments o om = .ok segs) (n : Nat) (layer : SliceLayer) (hn : segs[n]? = some (some layer))
    (htip : NoTip (heightOf o.print.initialLayerThickness o.print.layerThickness n) fs)
    (hone : ∀ a b b', Spec.Follows o.slicing.meldDistance om layer a b → Spec.Follows o.slicing.meldDistance om layer a b' → b = b') :
    ∃ paths simple short, makePolygons o om layer = .ok paths ∧ paths.mapM (fun p => simplifyM p (-1) (-1)) = .ok simple ∧
      (∀ p ∈ short, pathLength p ≤ o.slicing.finishPolygonSnapDistance) ∧
      ∀ k, Removed k paths simple → ∀ lib tol, 0 ≤ tol → NothingOutside enclosedBy lib tol → ∀ ls, slice lib o om = .ok ls → ∀ l, ls[n]? = some l →
        ∀ part ∈ l.parts, ∀ x, Touches enclosedBy (partContours part) x → ∃ y, NearPt (2 + 5 * k + tol) x y ∧
          (InsideSolid fs (heightOf o.print.initialLayerThickness o.print.layerThickness n) y ∨ OnSurface fs (heightOf o.print.initialLayerThickness o.print.layerThickness n) y ∨
            InsidePaths short y) := by
  obtain ⟨paths, simple, short, hp, hsimple, hs, hfar, hin⟩ := layer_outlines o m om hom fs hfs hclosed hsmall hmeld ht segs h n layer hn htip hone
  refine ⟨paths, simple, short, hp, hsimple, hs, fun k hk lib tol htol hlib ls hls l hl part hpart x hx => ?_⟩
  have hk0 : (0 : ℚ) ≤ 5 * k := by positivity
  rcases sliced_layer h hn hp hsimple hls hl with ⟨rfl, hparts⟩ | ⟨tree, htree, hparts⟩
  · rw [hparts] at hpart
    cases hpart
  rw [hparts] at hpart
  have hnear : NearArea enclosedBy tol (clipperPaths simple) x := by
    rcases hlib.union _ _ _ htree _ (isArea_part hpart) x hx with hc | ⟨y, hy | ⟨c, hc, -⟩, -⟩
    · exact hc
    · simp [evenOdd, crossings] at hy
    · cases hc
  obtain ⟨y, hy, hxy⟩ := hnear
  by_cases hq : FarFromSurface (0 + 5 * k + 2) fs (heightOf o.print.initialLayerThickness o.print.layerThickness n) y
  · obtain ⟨h1, h2⟩ := hin k hk 0 y le_rfl hq
    refine ⟨y, hxy.mono (by linarith), ?_⟩
    rcases hy with hy | ⟨c, hc, hy⟩
    · rw [evenOdd_enclosedBy, h2] at hy
      by_cases hsh : InsidePaths short y
      · exact .inr (.inr hsh)
      · exact .inl (hy.2 hsh)
    · obtain ⟨p, hpm, rfl⟩ := List.mem_map.1 hc
      rw [asPath_clipperPath] at hy
      exact (not_onPath_far (h1 p hpm) hy).elim
  · obtain ⟨y', hy', hn'⟩ := near_surface (by linarith) hq
    exact ⟨y', (hxy.trans hn').mono (by linarith), .inr (.inl hy')⟩

/-- **C120** The printed lines are near the solid: in the G-code of the program, each point which is passed by a move which extrudes (and moves in x or y) is within `82 + 5 k` µm (and a multiple of the tolerance
of the library) of a point which is inside of the solid at the height of the layer, on its surface, or enclosed by the outlines which are too short, unless the move belongs to the brim, the skirt or the support. -/
theorem C120_program (ext : Externals) (o : Options) (content t : Str) (h : gcodeOf ext o content = .ok t) {tol : ℚ} (h0 : 0 ≤ tol)
    (hn : NothingOutside enclosedBy ext.lib tol) (ho : OpenClipping ext.lib) (htrig : TurnsBack ext.trig) (hm : Moderate o) (hmeld : 2 ≤ o.slicing.meldDistance) (ht : 0 < o.print.layerThickness) :
    ∃ om segs sliced layers pt, optimize o ((ext.stl content).map stlTriangleToFace) = .ok om ∧ sliceSegments o om = .ok segs ∧ slice ext.lib o om = .ok sliced ∧
      (standardModifiers ext.lib ext.tan o).foldlM (fun ls m => m ls) sliced = .ok layers ∧ initPatterns ext.lib ext.trig o om = .ok pt ∧
      ∀ fs, om.faces.mapM om.facePoints = .ok fs → ClosedSurface fs → SmallSurface fs → layers ≠ [] →
      ∃ body m moves, t = startText o ++ body ++ endText o ∧ run body = some (m, moves) ∧
        ∀ (j : Nat) before line, moves[j]? = some before → moves[j + 1]? = some line → line.hasE = true →
          (before.after.x ≠ line.after.x ∨ before.after.y ≠ line.after.y) →
          ∃ n segments sl l, segs[n]? = some (some segments) ∧ sliced[n]? = some sl ∧ layers[n]? = some l ∧
            ∃ isOpen path a b, (a, b) ∈ pathLines isOpen (douglasPeuckerM path (-1)) ∧
            At before.after a (layerHeight o n) ∧ At line.after b (layerHeight o n) ∧ BelongsTo ext.lib o pt n l isOpen path ∧
            (ExtraPath ext.lib o pt n l isOpen path ∨
              (OnBed ext.lib o tol sl → (isOpen = false → SmallPath path) → NoTip (heightOf o.print.initialLayerThickness o.print.layerThickness n) fs →
                (∀ a b b', Spec.Follows o.slicing.meldDistance om segments a b → Spec.Follows o.slicing.meldDistance om segments a b' → b = b') →
                ∃ paths simple short, makePolygons o om segments = .ok paths ∧ paths.mapM (fun p => simplifyM p (-1) (-1)) = .ok simple ∧
                  (∀ p ∈ short, pathLength p ≤ o.slicing.finishPolygonSnapDistance) ∧
                  ∀ k, Removed k paths simple → ∀ x, Passes before.after line.after x →
                    ∃ y, NearPt (82 + 5 * k + (6 + wallCount ext.lib o sl.parts) * tol) x y ∧
                      (InsideSolid fs (heightOf o.print.initialLayerThickness o.print.layerThickness n) y ∨
                        OnSurface fs (heightOf o.print.initialLayerThickness o.print.layerThickness n) y ∨ InsidePaths short y))) := by
  obtain ⟨om, sliced, layers, pt, h1, h2, h3, h4, h5⟩ := C114_program ext o content t h h0 hn ho htrig hm
  obtain ⟨segs, h6, h7⟩ := bind_ok.1 h2
  refine ⟨om, segs, sliced, layers, pt, h1, h6, h2, h3, h4, fun fs hfs hclosed hsmall hne => ?_⟩
  obtain ⟨body, m, moves, hb1, hb2, hb3⟩ := h5 hne
  refine ⟨body, m, moves, hb1, hb2, fun j before line hbe hl he hmove => ?_⟩
  obtain ⟨n, sl, l, hsl, hln, isOpen, path, a, b, hab, ha, hb, hbel, hor⟩ := hb3 j before line hbe hl he hmove
  obtain ⟨segments, hseg⟩ : ∃ segments, segs[n]? = some (some segments) := by
    have hf := mapM_ok.1 h7
    rw [List.forall₂_iff_get] at hf
    obtain ⟨hnl, hne⟩ := List.getElem?_eq_some_iff.1 hsl
    have hfin := hf.2 n (by rw [hf.1]; exact hnl) hnl
    simp only [List.get_eq_getElem] at hfin
    cases hs : segs[n]'(by rw [hf.1]; exact hnl) with
    | none => rw [hs] at hfin; cases hfin
    | some segments => exact ⟨segments, List.getElem?_eq_some_iff.2 ⟨_, hs⟩⟩
  refine ⟨n, segments, sl, l, hseg, hsl, hln, isOpen, path, a, b, hab, ha, hb, hbel, ?_⟩
  rcases hor with hor | hor
  · refine .inr fun hbed hsp htip hone => ?_
    obtain ⟨paths, simple, short, hp, hsimple, hs, hkey⟩ := C120_parts o _ om h1 fs hfs hclosed hsmall hmeld ht segs h6 n segments hseg htip hone
    refine ⟨paths, simple, short, hp, hsimple, hs, fun k hk x hx => ?_⟩
    obtain ⟨part, hpart, y, hy, hxy⟩ := hor hbed hsp x hx
    obtain ⟨y', hn', hy'⟩ := hkey k hk ext.lib tol h0 hn sliced h2 sl hsl part hpart y hy
    refine ⟨y', (hxy.trans hn').mono (le_of_eq (by ring)), hy'⟩
  · exact .inl hor

/-! ## Examples -/

theorem keep_union : UnionKeeps keepLib 0 := by
  intro s tree h q _
  cases h
  rw [treesContours_keep]

/-- The assumptions of `C119_region` are met by the tetrahedron: `Simplify` removes one point, and (99650, 99650) is in the region of the part, (99350, 99650) is not. -/
example : ∃ ls l, slice keepLib fineOptions tetraOpt = .ok ls ∧ ls[1]? = some l ∧ ((99650, 99650) : ℚ × ℚ) ∈ region enclosedBy l.parts ∧ ((99350, 99650) : ℚ × ℚ) ∉ region enclosedBy l.parts := by
  have e := tetra_fine_segments
  have ep := tetra_polygons
  have ek := tetra_keep
  cases h : sliceSegments fineOptions tetraOpt with
  | error f => rw [h] at e; cases e
  | ok layers =>
    rw [h] at e ep
    have e := Except.ok.inj e
    rw [Option.map_eq_some_iff] at e
    obtain ⟨l, hl, e⟩ := e
    rw [Option.map_eq_some_iff] at e
    obtain ⟨layer, rfl, hs⟩ := e
    simp only [Except.bind, hl] at ep
    cases hk : slice keepLib fineOptions tetraOpt with
    | error f => rw [hk] at ek; cases ek
    | ok ls =>
      rw [hk] at ek
      have ek := Except.ok.inj ek
      rw [Option.map_eq_some_iff] at ek
      obtain ⟨l, hl', -⟩ := ek
      obtain ⟨paths, simple, short, hp, hsimple, -, key⟩ := C119_region fineOptions tetra tetraOpt tetra_fine tetraFaces tetraFaces_ok (by decide +kernel)
        (by unfold SmallSurface; decide +kernel) (by decide) (by decide) layers h 1 layer hl (by decide +kernel) (starts_apart (by rw [hs]; decide +kernel))
      rw [ep] at hp
      obtain rfl := Except.ok.inj hp
      have hv : [[⟨99500, 99500⟩, ⟨100100, 99500⟩, ⟨99500, 100100⟩, (⟨99500, 99500⟩ : Pt)]].mapM (fun p => simplifyM p (-1) (-1)) = .ok [[⟨99500, 99500⟩, ⟨100100, 99500⟩, ⟨99500, 100100⟩]] := by
        decide +kernel
      rw [hsimple] at hv
      obtain rfl := Except.ok.inj hv
      have key := key 1 (.cons (by decide) .nil) keepLib 0 le_rfl keep_union ls hk l hl'
      have hD : (2 * (max 0 fineOptions.slicing.finishPolygonSnapDistance : Int) + 2 : ℚ) = 22 := by decide +kernel
      have hz : heightOf fineOptions.print.initialLayerThickness fineOptions.print.layerThickness 1 = 400 := by decide
      rw [hD, hz] at key
      have k1 := (key (99650, 99650) (farFromSurface_mono tetra_far.1 (by norm_num) (by norm_num))).2 (by decide) tetra_far.1
      have k2 := (key (99350, 99650) (farFromSurface_mono tetra_far.2 (by norm_num) (by norm_num))).2 (by decide) tetra_far.2
      exact ⟨ls, l, rfl, hl', k1.2 (by decide +kernel), fun hc => absurd (k2.1 hc) (by decide +kernel)⟩

theorem corner_opt : optimize {} cornerMesh = .ok tetraOpt := by decide +kernel

theorem corner_segments : (sliceSegments {} tetraOpt).map (fun ls => ls.map (Option.map SliceLayer.segments)) = .ok
    [some [⟨⟨99500, 99500⟩, ⟨100300, 99500⟩, 1⟩, ⟨⟨99500, 100300⟩, ⟨99500, 99500⟩, 2⟩, ⟨⟨100300, 99500⟩, ⟨99500, 100300⟩, 3⟩],
     some [⟨⟨99500, 99500⟩, ⟨100100, 99500⟩, 1⟩, ⟨⟨99500, 100100⟩, ⟨99500, 99500⟩, 2⟩, ⟨⟨100100, 99500⟩, ⟨99500, 100100⟩, 3⟩],
     some [⟨⟨99500, 99500⟩, ⟨99900, 99500⟩, 1⟩, ⟨⟨99500, 99900⟩, ⟨99500, 99500⟩, 2⟩, ⟨⟨99900, 99500⟩, ⟨99500, 99900⟩, 3⟩],
     some [⟨⟨99500, 99500⟩, ⟨99700, 99500⟩, 1⟩, ⟨⟨99500, 99700⟩, ⟨99500, 99500⟩, 2⟩, ⟨⟨99700, 99500⟩, ⟨99500, 99700⟩, 3⟩], some []] := by decide +kernel

/-- The assumptions of `C120_program` are met in all layers of the tetrahedron which are not empty, with the default options (see `C114_program` for the ones which are not repeated here). -/
example : ∃ om segs fs, optimize {} ((soleExt.stl []).map stlTriangleToFace) = .ok om ∧ sliceSegments {} om = .ok segs ∧ om.faces.mapM om.facePoints = .ok fs ∧ ClosedSurface fs ∧ SmallSurface fs ∧
    ∀ n layer, segs[n]? = some (some layer) → layer.segments ≠ [] → NoTip (heightOf 200 200 n) fs ∧ ∀ a b b', Spec.Follows 30 om layer a b → Spec.Follows 30 om layer a b' → b = b' := by
  have e := corner_segments
  cases h : sliceSegments {} tetraOpt with
  | error f => rw [h] at e; cases e
  | ok segs =>
    rw [h] at e
    have e : segs.map (Option.map SliceLayer.segments) = _ := Except.ok.inj e
    refine ⟨tetraOpt, segs, tetraFaces, ?_, h, tetraFaces_ok, by decide +kernel, by unfold SmallSurface; decide +kernel, fun n layer hn hne => ?_⟩
    · have hm : cornerMesh = (soleExt.stl []).map stlTriangleToFace := by decide +kernel
      rw [← hm]
      exact corner_opt
    · have hl : segs.length = 5 := by rw [← List.length_map (f := Option.map SliceLayer.segments), e]; rfl
      have hn5 : n < 5 := hl ▸ (List.getElem?_eq_some_iff.1 hn).1
      have hs := congrArg (·[n]?) e
      simp only [List.getElem?_map, hn, Option.map_some] at hs
      have hs' : layer.segments.Pairwise fun s s' => ¬ Within s.start s'.start (2 * 30) := by
        interval_cases n <;> (have hs := Option.some.inj (Option.some.inj hs); rw [hs]; decide +kernel)
      have hn4 : n < 4 := by
        by_contra hc
        obtain rfl : n = 4 := by omega
        exact hne (Option.some.inj (Option.some.inj hs))
      refine ⟨?_, starts_apart hs'⟩
      clear hs hn hn5
      revert hn4
      revert n
      decide +kernel

end Verif
