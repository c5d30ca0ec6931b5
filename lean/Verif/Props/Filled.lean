import Verif.Props.Drawn
import Verif.Props.Coverage
import Verif.Props.PatternSetup

/-! # C111: the areas of a print are filled -/
namespace Verif
open Verif.Go Verif.Model Verif.Spec Verif.Spec.GCode

/-- The steps of the program. -/
theorem gcodeOf_steps {ext : Externals} {o : Options} {content t : Str} (h : gcodeOf ext o content = .ok t) :
    ∃ om sliced layers pt g0, optimize o ((ext.stl content).map stlTriangleToFace) = .ok om ∧ slice ext.lib o om = .ok sliced ∧
      (standardModifiers ext.lib ext.tan o).foldlM (fun ls m => m ls) sliced = .ok layers ∧ initPatterns ext.lib ext.trig o om = .ok pt ∧
      (generateScripts ext.lib.isCrossingPerimeter o (standardRenderers ext.lib o pt) layers g0).2 = (t, none) := by
  unfold gcodeOf at h
  obtain ⟨-, -, h⟩ := bind_ok.1 h
  obtain ⟨om, h1, h⟩ := bind_ok.1 h
  obtain ⟨sliced, h2, h⟩ := bind_ok.1 h
  obtain ⟨layers, h3, h⟩ := bind_ok.1 h
  obtain ⟨pt, h4, h⟩ := bind_ok.1 h
  refine ⟨om, sliced, layers, pt, newBuilder o.filament.filamentDiameter o.filament.extrusionMultiplier, h1, h2, h3, h4, ?_⟩
  split at h
  · cases h
  · rename_i heq
    cases h
    exact heq

/-- The area of a part is filled by printed lines: left of every point of the (rotated) limits there is a scan line in less than the distance `d`; each piece of it
from `(X, y)` to `(X, y')` which is inside of the (rotated) part, not nearer to the border than the margin, is part of a printed line (rotated back). -/
def Filled (inside : List IntPoint → Set (ℚ × ℚ)) (trig : ℚ → ℚ × ℚ) (rot : ℚ) (min max : Pt) (d : Int) (margin : ℚ) (moves : List Move) (z : Int)
    (part : LayerPart) : Prop :=
  let turn := fun path : Path => pathRotate rot (trig rot).1 (trig rot).2 path
  let box := pathBounds (turn [min, ⟨max.x, min.y⟩, max, ⟨min.x, max.y⟩])
  ∀ x : ℚ, box.1.x ≤ x → x ≤ box.2.x → ∃ X : Int, X ≤ x ∧ x < X + d ∧
    ∀ y y' : ℚ, y ≤ y' → box.1.y + margin ≤ y → y' ≤ box.2.y - margin →
      (∀ u : ℚ, y - (margin + 1) ≤ u → u ≤ y' + (margin + 1) → ((X : ℚ), u) ∈ region inside [⟨turn part.outline, part.holes.map turn⟩]) →
      ∃ a b a' b', PassesThrough a b X y ∧ PassesThrough a b X y' ∧ pathRotate (-rot) (trig (-rot)).1 (trig (-rot)).2 [a, b] = [a', b'] ∧
        (a' ≠ b' → |b'.x - a'.x| ≤ 2 ^ 53 → |b'.y - a'.y| ≤ 2 ^ 53 → Printed moves z a' b')

theorem filled_of {inside : List IntPoint → Set (ℚ × ℚ)} {p : Linear} {lib : ClipperLib} (hlib : OpenClipping lib) (hk : KeepsInside inside lib)
    {trig : ℚ → ℚ × ℚ} (hd : 0 < p.lineDistance) (hw : 0 ≤ p.lineWidth) {n : Nat} {part : LayerPart} {o : Options} {moves : List Move} {lines : Paths}
    (hl : p.fill lib trig n part = .ok lines) (hp : ∀ path ∈ lines, PathPrinted o moves n true path) :
    Filled inside trig (p.rotation n) p.min p.max p.lineDistance (if p.zigZag then (p.lineWidth : ℚ) / 2 else 0) moves (layerHeight o n) part := by
  obtain ⟨result, h1, h2⟩ := C105_covered inside p lib hlib hk trig hd hw n part
  rw [hl] at h1
  have h1 := Except.ok.inj h1
  subst h1
  unfold Filled
  intro turn box x hx1 hx2
  obtain ⟨X, hX1, hX2, h3⟩ := h2 x hx1 hx2
  refine ⟨X, hX1, hX2, fun y y' hle hy1 hy2 hin => ?_⟩
  obtain ⟨a, b, hab, hab', hmem⟩ := h3 y y' hle hy1 hy2 hin
  have hrot : ∃ a' b', pathRotate (-(p.rotation n)) (trig (-(p.rotation n))).1 (trig (-(p.rotation n))).2 [a, b] = [a', b'] := by
    unfold pathRotate
    split
    · exact ⟨_, _, rfl⟩
    · exact ⟨_, _, rfl⟩
  obtain ⟨a', b', he⟩ := hrot
  refine ⟨a, b, a', b', hab, hab', he, fun hne hx hy => ?_⟩
  rw [he] at hmem
  refine hp _ hmem a' b' ?_ hne hx hy
  rw [C05_int64_short _ _ (by simp)]
  simp [pathLines]

/-- **C111** In the G-code of the program all areas which belong to the top or bottom are filled with printed lines in the distance of the extrusion width,
without margin, in the limits of the model; and internal infill is filled with lines in the distance that belongs to its percentage. -/
theorem C111_filled (inside : List IntPoint → Set (ℚ × ℚ)) (ext : Externals) (o : Options) (content t : Str) (h : gcodeOf ext o content = .ok t)
    (ho : Extrudes o) (hdeg : |o.print.infillRotationDegree| ≤ 2 ^ 31) (hlib : OpenClipping ext.lib) (hk : KeepsInside inside ext.lib) :
    ∃ om sliced layers lo hi, optimize o ((ext.stl content).map stlTriangleToFace) = .ok om ∧ slice ext.lib o om = .ok sliced ∧
      (standardModifiers ext.lib ext.tan o).foldlM (fun ls m => m ls) sliced = .ok layers ∧ om.min = .ok lo ∧ om.max = .ok hi ∧
      (layers ≠ [] → ∃ body m moves, t = startText o ++ body ++ endText o ∧ run body = some (m, moves) ∧ ∀ n l, layers[n]? = some l →
        (∃ bottom top, l.partsAttribute "bottom" = .ok bottom ∧ l.partsAttribute "top" = .ok top ∧ ∀ part ∈ bottom ++ top,
          Filled inside ext.trig (o.print.infillRotationDegree + if n % 2 = 0 then 90 else 0) lo.pointXY hi.pointXY o.printer.extrusionWidth 0 moves
            (layerHeight o n) part) ∧
        (o.print.infillPercent ≠ 0 → ∃ d internal, infillDistance o.printer.extrusionWidth o.print.infillPercent = .ok d ∧
          l.partsAttribute "infill" = .ok internal ∧ (0 < d → ∀ part ∈ internal,
          Filled inside ext.trig (o.print.infillRotationDegree + if n % 2 = 0 then 90 else 0) lo.pointXY hi.pointXY d
            (if o.print.infillZigZag then (o.printer.extrusionWidth : ℚ) / 2 else 0) moves (layerHeight o n) part))) := by
  obtain ⟨om, sliced, layers, pt, g0, h1, h2, h3, h4, h5⟩ := gcodeOf_steps h
  unfold initPatterns at h4
  obtain ⟨lo, hlo, h4⟩ := bind_ok.1 h4
  obtain ⟨hi, hhi, h4⟩ := bind_ok.1 h4
  refine ⟨om, sliced, layers, lo, hi, h1, h2, h3, hlo, hhi, fun hne => ?_⟩
  obtain ⟨body, m, moves, hb1, hb2, hb3⟩ := C111_printed ho hne h5
  obtain ⟨support, interface, solid, internal, ⟨-, -, p3, p4, p5⟩, -, -, ⟨-, -, hsd⟩, -, ⟨-, -, hz⟩, hint, hall, hinternal, hw⟩ :=
    C98_patterns ext.lib ext.trig o lo.pointXY hi.pointXY pt h4 hdeg
  have hw0 : 0 < o.printer.extrusionWidth := by have := ho.width; omega
  have hws : solid.lineWidth = o.printer.extrusionWidth := hw solid (by simp)
  refine ⟨body, m, moves, hb1, hb2, fun n l hl => ?_⟩
  obtain ⟨-, -, hfill, -⟩ := hb3 n l hl
  refine ⟨?_, fun hpercent => ?_⟩
  · obtain ⟨bottom, hbot, hbf⟩ := hfill (solid.fill ext.lib ext.trig) "bottom" (by simp [infillKinds, p3])
    obtain ⟨top, htop, htf⟩ := hfill (solid.fill ext.lib ext.trig) "top" (by simp [infillKinds, p4])
    refine ⟨bottom, top, hbot, htop, fun part hpart => ?_⟩
    obtain ⟨lines, hl1, hl2⟩ := (List.mem_append.1 hpart).elim (hbf part) (htf part)
    have := filled_of (inside := inside) hlib hk (by rw [hsd, hws]; exact hw0) (by rw [hws]; omega) hl1 hl2
    obtain ⟨e1, e2, e3⟩ := hall solid (.inl rfl)
    rw [e1, e2, e3 n, hsd, hws, hz] at this
    simpa using this
  · obtain ⟨p, hp⟩ := Option.isSome_iff_exists.1 (hint.2 hpercent)
    subst hp
    obtain ⟨q1, q2⟩ := hinternal p rfl
    obtain ⟨parts, hparts, hpf⟩ := hfill (p.fill ext.lib ext.trig) "infill" (by simp [infillKinds, p5])
    refine ⟨p.lineDistance, parts, q2, hparts, fun hd part hpart => ?_⟩
    obtain ⟨lines, hl1, hl2⟩ := hpf part hpart
    have hwp : p.lineWidth = o.printer.extrusionWidth := hw p (by simp)
    have := filled_of (inside := inside) hlib hk hd (by rw [hwp]; omega) hl1 hl2
    obtain ⟨e1, e2, e3⟩ := hall p (.inr rfl)
    rw [e1, e2, e3 n, hwp, q1] at this
    exact this

/-- Non-vacuity: the hypotheses hold for the default options, the tetrahedron, and a library which keeps lines as they are. -/
example (inside : List IntPoint → Set (ℚ × ℚ)) : ∃ t, gcodeOf { cornerExt with lib := insideClipper } {} [] = .ok t ∧ Extrudes {} ∧
    |({} : Options).print.infillRotationDegree| ≤ 2 ^ 31 ∧ OpenClipping insideClipper ∧ KeepsInside inside insideClipper := by
  have hm : cornerMesh = (cornerExt.stl []).map stlTriangleToFace := by decide +kernel
  have ho : OpenClipping insideClipper := by
    refine ⟨fun t s c => ⟨_, rfl⟩, ?_⟩
    intro s c tree h hs n hn
    simp only [insideClipper, if_true, Option.some.injEq] at h
    subst h
    obtain ⟨l, hl, rfl⟩ := List.mem_map.1 hn
    simp [PolyNode.contour, hs l hl]
  obtain ⟨t, ht⟩ := C90_gcode { cornerExt with lib := insideClipper } {} [] sensible_default (fun _ _ _ => rfl) ho cornerMesh hm (by decide) (by decide)
    (by unfold Separated; decide +kernel) corner_noGap (.inr rfl)
  refine ⟨t, ht, extrudes_default, by decide, ho, ?_⟩
  intro lines clip tree h x top bottom hl lo hi h1 h2 h3 _
  have h := Option.some.inj h
  subst h
  exact ⟨_, List.mem_map_of_mem hl, ⟨x, top⟩, ⟨x, bottom⟩, rfl, rfl, rfl, .inl ⟨h2, h3⟩⟩

end Verif
