import Verif.Props.SidesWhole
import Mathlib.Algebra.Ring.Parity

/-! # C132: several bodies in one model -/
namespace Verif
open Verif.Go Verif.Model Verif.Spec Verif.Spec.GCode

/-- A point is inside of two bodies together if it is inside of exactly one of them. -/
theorem insideSolid_append (as bs : List (Tri Vec3)) (z : Int) (q : ℚ × ℚ) : InsideSolid (as ++ bs) z q ↔ ¬(InsideSolid as z q ↔ InsideSolid bs z q) := by
  unfold InsideSolid
  rw [List.countP_append, Nat.odd_add, ← Nat.not_odd_iff_even]
  tauto

open Classical in
theorem evenOdd_moved {cs : List (List IntPoint)} {x y : ℚ × ℚ} {d : ℚ} (hf : ∀ c ∈ cs, FarFromPath d (asPath c) x) (hn : NearPt d x y) :
    y ∈ evenOdd enclosedBy cs ↔ x ∈ evenOdd enclosedBy cs := by
  unfold evenOdd crossings
  simp only [Set.mem_ofPred_eq]
  rw [List.countP_congr fun c hc => ?_]
  rw [decide_eq_true_iff, decide_eq_true_iff]
  exact encloses_moved hn (hf c hc)

theorem not_onPath_near {d : ℚ} {p : Path} {x y : ℚ × ℚ} (hf : FarFromPath d p x) (hn : NearPt d x y) : ¬ OnPath false p y := by
  rintro ⟨a, b, hab, t, h0, h1, rfl⟩
  have h := hf (a, b) (by rwa [← pathLines_sides]) t h0 h1
  have h2 := hn.2
  simp only [lineAt] at h2
  nlinarith

theorem region_near {ps : List LayerPart} {x : ℚ × ℚ} {d : ℚ} (hc : Clear d ps x) (hone : AtMostOne ps x) {p : LayerPart} (hp : p ∈ ps)
    (h : NearArea enclosedBy d (partContours p) x) : x ∈ region enclosedBy ps := by
  obtain ⟨y, hy, hn⟩ := h
  refine mem_region_of_atMostOne hone hp ?_
  simp only [region, List.flatMap_cons, List.flatMap_nil, List.append_nil]
  rcases hy with hy | ⟨c, hcm, hy⟩
  · exact (evenOdd_moved (hc p hp) hn).1 hy
  · exact absurd hy (not_onPath_near (hc p hp c hcm) hn)

/-- **C132** In a model of two bodies, the outlines of a layer enclose what is inside of exactly one of the bodies. So bodies which do not overlap are both sliced as they would be alone, but
the common part of bodies which overlap is left empty: nothing is printed there, other than skirt, brim and support. -/
theorem C132_program (ext : Externals) (o : Options) (content t : Str) (h : gcodeOf ext o content = .ok t) {tol : ℚ} (h0 : 0 ≤ tol) (hk : KeepsSides ext.lib tol)
    (hn : NothingOutside enclosedBy ext.lib tol) (ho : OpenClipping ext.lib) (htrig : TurnsBack ext.trig) (hm : Moderate o) (hmeld : 2 ≤ o.slicing.meldDistance)
    (ht : 0 < o.print.layerThickness) (hfin : o.slicing.finishPolygonSnapDistance < 2 ^ 26 - 1) :
    ∃ om segs sliced layers pt, optimize o ((ext.stl content).map stlTriangleToFace) = .ok om ∧ sliceSegments o om = .ok segs ∧ slice ext.lib o om = .ok sliced ∧
      (standardModifiers ext.lib ext.tan o).foldlM (fun ls m => m ls) sliced = .ok layers ∧ initPatterns ext.lib ext.trig o om = .ok pt ∧
      ∀ as bs, om.faces.mapM om.facePoints = .ok (as ++ bs) → ClosedSurface (as ++ bs) → SmallSurface (as ++ bs) → layers ≠ [] →
        (∀ n k l, sliced[n]? = some l → WellSliced o om (as ++ bs) segs k n → ∀ q, FarFromSurface (tol + 5 * k + 2) (as ++ bs) (layerHeight o n) q →
          FarFromSurface (2 * max 0 o.slicing.finishPolygonSnapDistance + 2) (as ++ bs) (layerHeight o n) q →
          (q ∈ region enclosedBy l.parts ↔ ¬(InsideSolid as (layerHeight o n) q ↔ InsideSolid bs (layerHeight o n) q))) ∧
        ∃ body m moves, t = startText o ++ body ++ endText o ∧ run body = some (m, moves) ∧
          ∀ (j : Nat) before line, moves[j]? = some before → moves[j + 1]? = some line → line.hasE = true →
            (before.after.x ≠ line.after.x ∨ before.after.y ≠ line.after.y) →
            ∃ n sl l, sliced[n]? = some sl ∧ layers[n]? = some l ∧ ∃ isOpen path a b, (a, b) ∈ pathLines isOpen (douglasPeuckerM path (-1)) ∧
              At before.after a (layerHeight o n) ∧ At line.after b (layerHeight o n) ∧
              (ExtraPath ext.lib o pt n l isOpen path ∨
                (OnBed ext.lib o tol sl → (isOpen = false → SmallPath path) → ∀ k, WellSliced o om (as ++ bs) segs k n → ∀ x, Passes before.after line.after x →
                  FarFromSurface (82 + 5 * k + (6 + wallCount ext.lib o sl.parts) * tol) (as ++ bs) (layerHeight o n) x →
                  FarFromSurface (2 * max 0 o.slicing.finishPolygonSnapDistance + 2) (as ++ bs) (layerHeight o n) x →
                  ¬(InsideSolid as (layerHeight o n) x ∧ InsideSolid bs (layerHeight o n) x))) := by
  obtain ⟨om, sliced, layers, pt, h1, h2, h3, h4, h5⟩ := C114_program ext o content t h h0 hn ho htrig hm
  obtain ⟨segs, h6, -⟩ := bind_ok.1 h2
  refine ⟨om, segs, sliced, layers, pt, h1, h6, h2, h3, h4, fun as bs hfs hclosed hsmall hne => ⟨fun n k l hl hw q hq hq2 => ?_, ?_⟩⟩
  · rw [← insideSolid_append]
    exact (layer_sides h1 hfs hclosed hsmall hmeld ht hfin h6 hw hk h0 h2 hl le_rfl (by rwa [zero_add]) hq2).2.2
  · obtain ⟨body, m, moves, hb1, hb2, hb3⟩ := h5 hne
    refine ⟨body, m, moves, hb1, hb2, fun j before line hbe hli he hmove => ?_⟩
    obtain ⟨n, sl, l, hsl, hln, isOpen, path, a, b, hab, ha, hb, -, hor⟩ := hb3 j before line hbe hli he hmove
    refine ⟨n, sl, l, hsl, hln, isOpen, path, a, b, hab, ha, hb, hor.symm.imp id fun hor hbed hsp k hw x hx hq hq2 hboth => ?_⟩
    obtain ⟨part, hpart, hnear⟩ := hor hbed hsp x hx
    have hD : (0 : ℚ) ≤ 80 + (5 + wallCount ext.lib o sl.parts) * tol := by positivity
    obtain ⟨hc, hone, hreg⟩ := layer_sides h1 hfs hclosed hsmall hmeld ht hfin h6 hw hk h0 h2 hsl hD (farFromSurface_mono hq (by positivity) (le_of_eq (by ring))) hq2
    exact (insideSolid_append as bs _ x).1 (hreg.1 (region_near hc hone hpart hnear)) (iff_of_true hboth.1 hboth.2)

end Verif
