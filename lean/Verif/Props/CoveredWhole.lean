import Verif.Props.Covered
import Verif.Props.Outside

/-! # C118: the solid areas of a print are covered -/
namespace Verif
open Verif.Go Verif.Model Verif.Spec Verif.Spec.GCode

/-- Next to each point of a line the machine passes when it prints the line. -/
theorem near_passes {m m' : Machine} {a b : Pt} {z z' : Int} (ha : At m a z) (hb : At m' b z') (h1 : |a.x| ≤ 10 ^ 6) (h2 : |a.y| ≤ 10 ^ 6) (h3 : |b.x| ≤ 10 ^ 6)
    (h4 : |b.y| ≤ 10 ^ 6) {x : ℚ × ℚ} (hx : OnSegment (exactPt a) (exactPt b) x) : ∃ y, Passes m m' y ∧ NearPt (73 / 10) x y := by
  obtain ⟨t, h0, ht1, rfl⟩ := hx
  obtain ⟨a1, a2, -⟩ := ha
  obtain ⟨b1, b2, -⟩ := hb
  refine ⟨_, ⟨_, _, _, _, a1, a2, b1, b2, t, h0, ht1, rfl⟩, by norm_num, ?_⟩
  have c1 := C22_accuracy a.x h1
  have c2 := C22_accuracy a.y h2
  have c3 := C22_accuracy b.x h3
  have c4 := C22_accuracy b.y h4
  have conv : ∀ u v u' v' : ℚ, |u * 1000 - u'| ≤ 51 / 10 → |v * 1000 - v'| ≤ 51 / 10 →
      (u' + t * (v' - u') - (1000 * u + t * (1000 * v - 1000 * u))) ^ 2 ≤ (51 / 10) ^ 2 := by
    intro u v u' v' hu hv
    have := sq_convex h0 ht1 (sq_le_sq' (abs_le.1 hu).1 (abs_le.1 hu).2) (sq_le_sq' (abs_le.1 hv).1 (abs_le.1 hv).2)
    refine le_trans (le_of_eq ?_) this
    ring
  have k1 := conv _ _ _ _ c1 c3
  have k2 := conv _ _ _ _ c2 c4
  simp only [lineAt, exactPt]
  linarith

/-- A part which is filled with printed lines is covered by them. -/
theorem covered_part {lib : ClipperLib} {o : Options} {tol : ℚ} (h0 : 0 ≤ tol) (hn : NothingOutside enclosedBy lib tol) (ho : OpenClipping lib) (hk : KeepsInside enclosedBy lib)
    {trig : ℚ → ℚ × ℚ} (ht : TurnsBack trig) {p : Linear} (hd : 0 < p.lineDistance) (hd' : p.lineDistance ≤ 2 ^ 34) (hw : 0 ≤ p.lineWidth) (hw' : p.lineWidth ≤ 2 ^ 34)
    (hmin : |p.min.x| ≤ 2 ^ 34 ∧ |p.min.y| ≤ 2 ^ 34) (hmax : |p.max.x| ≤ 2 ^ 34 ∧ |p.max.y| ≤ 2 ^ 34) {n : Nat} {sl : Layer} (hbed : OnBed lib o tol sl) {part : LayerPart}
    (hnp : NearParts enclosedBy ((4 + wallCount lib o sl.parts) * tol) sl.parts part) {lines : Paths} (hl : p.fill lib trig n part = .ok lines) {moves : List Move}
    (hp : ∀ path ∈ lines, PathPrinted o moves n true path) {x : ℚ × ℚ}
    (h1 : Deep (p.lineDistance / 2 + (if p.zigZag then (p.lineWidth : ℚ) / 2 else 0) + 5) (partContours part) x)
    (h2 : InLimits (p.lineDistance / 2 + (if p.zigZag then (p.lineWidth : ℚ) / 2 else 0) + 5) p.min p.max x) :
    PrintedNear moves (layerHeight o n) (p.lineDistance / 2 + 9) x := by
  have hbt := hbed.tolerance
  have hle : (4 + wallCount lib o sl.parts) * tol ≤ (5 + wallCount lib o sl.parts) * tol := by nlinarith
  have htol : tol ≤ (5 + wallCount lib o sl.parts) * tol := by nlinarith [mul_nonneg (Nat.cast_nonneg (α := ℚ) (wallCount lib o sl.parts)) h0]
  have hsmall := bed_small hbed (by norm_num at hbt ⊢; linarith) hnp
  obtain ⟨a, b, hab, hne, hx, hy, q, hq, hxq⟩ := C118_fill h0 (by norm_num at hbt ⊢; linarith) hn ho hk ht p hd hd' hw hw' hmin hmax n hsmall _ hl x h1 h2
  obtain ⟨-, hfill⟩ := C114_fill h0 (by norm_num at hbt ⊢; linarith) hn ho ht p hw n hsmall _ hl _ hab
  have hbox : ∀ x, OnPath true [a, b] x → |x.1| ≤ 10 ^ 6 ∧ |x.2| ≤ 10 ^ 6 := by
    intro x hx
    obtain ⟨y, hy, hxy⟩ := hfill x hx
    obtain ⟨q, hq, hnq⟩ := hnp y hy
    have := bed_box hbed ⟨q, hq, NearArea.near hnq hxy⟩
    constructor
    · exact this.1.trans (by norm_num at hbt ⊢; linarith)
    · exact this.2.trans (by norm_num at hbt ⊢; linarith)
  have hlines : (a, b) ∈ pathLines true [a, b] := by simp [pathLines]
  obtain ⟨k1, k2⟩ := onPath_ends hlines
  have k1 := hbox _ k1
  have k2 := hbox _ k2
  simp only [exactPt] at k1 k2
  obtain ⟨k, before, line, e1, e2, e3, e4, e5, e6⟩ := hp _ hab a b (by rw [C05_int64_short _ _ (by simp)]; exact hlines) hne hx hy
  obtain ⟨y, hy1, hy2⟩ := near_passes e3 e6 (by exact_mod_cast k1.1) (by exact_mod_cast k1.2) (by exact_mod_cast k2.1) (by exact_mod_cast k2.2) hq
  exact ⟨k, before, line, e1, e2, e4, e5, e3.2.2, e6.2.2, y, hy1, (hxq.trans hy2).mono (by linarith)⟩

/-- **C118** In the G-code of the program, the areas which belong to the top or bottom are covered: each point which is at least half the extrusion width and 5 µm inside of
such an area and of the limits of the model is within half the extrusion width and 9 µm of a move which extrudes at the height of the layer. The same is true for the areas
of internal infill with half the distance of its lines (for zig zag, the points must be half the extrusion width deeper inside). -/
theorem C118_program (ext : Externals) (o : Options) (content t : Str) (h : gcodeOf ext o content = .ok t) {tol : ℚ} (h0 : 0 ≤ tol)
    (hn : NothingOutside enclosedBy ext.lib tol) (hlib : OpenClipping ext.lib) (hk : KeepsInside enclosedBy ext.lib) (htrig : TurnsBack ext.trig) (hm : Moderate o)
    (ho : Extrudes o) (hdeg : |o.print.infillRotationDegree| ≤ 2 ^ 31) :
    ∃ om sliced layers lo hi, optimize o ((ext.stl content).map stlTriangleToFace) = .ok om ∧ slice ext.lib o om = .ok sliced ∧
      (standardModifiers ext.lib ext.tan o).foldlM (fun ls m => m ls) sliced = .ok layers ∧ om.min = .ok lo ∧ om.max = .ok hi ∧
      (layers ≠ [] → ∃ body m moves, t = startText o ++ body ++ endText o ∧ run body = some (m, moves) ∧
        (|lo.x| ≤ 2 ^ 34 ∧ |lo.y| ≤ 2 ^ 34 → |hi.x| ≤ 2 ^ 34 ∧ |hi.y| ≤ 2 ^ 34 → ∀ n l, layers[n]? = some l → ∃ sl, sliced[n]? = some sl ∧ (OnBed ext.lib o tol sl →
          (∃ bottom top, l.partsAttribute "bottom" = .ok bottom ∧ l.partsAttribute "top" = .ok top ∧ ∀ part ∈ bottom ++ top,
            ∀ x, Deep (o.printer.extrusionWidth / 2 + 5) (partContours part) x → InLimits (o.printer.extrusionWidth / 2 + 5) lo.pointXY hi.pointXY x →
              PrintedNear moves (layerHeight o n) (o.printer.extrusionWidth / 2 + 9) x) ∧
          (o.print.infillPercent ≠ 0 → ∃ d internal, infillDistance o.printer.extrusionWidth o.print.infillPercent = .ok d ∧
            l.partsAttribute "infill" = .ok internal ∧ (0 < d → d ≤ 2 ^ 34 → ∀ part ∈ internal,
            ∀ x, Deep (d / 2 + (if o.print.infillZigZag then (o.printer.extrusionWidth : ℚ) / 2 else 0) + 5) (partContours part) x →
              InLimits (d / 2 + (if o.print.infillZigZag then (o.printer.extrusionWidth : ℚ) / 2 else 0) + 5) lo.pointXY hi.pointXY x →
              PrintedNear moves (layerHeight o n) (d / 2 + 9) x))))) := by
  obtain ⟨om, sliced, layers, pt, g0, h1, h2, h3, h4, h5⟩ := gcodeOf_steps h
  unfold initPatterns at h4
  obtain ⟨lo, hlo, h4⟩ := bind_ok.1 h4
  obtain ⟨hi, hhi, h4⟩ := bind_ok.1 h4
  refine ⟨om, sliced, layers, lo, hi, h1, h2, h3, hlo, hhi, fun hne => ?_⟩
  obtain ⟨body, m, moves, hb1, hb2, hb3⟩ := C111_printed ho hne h5
  obtain ⟨support, interface, solid, internal, ⟨-, -, p3, p4, p5⟩, -, -, ⟨-, -, hsd⟩, -, ⟨-, -, hz⟩, hint, hall, hinternal, hw⟩ :=
    C98_patterns ext.lib ext.trig o lo.pointXY hi.pointXY pt h4 hdeg
  have hw0 : 0 < o.printer.extrusionWidth := by have := ho.width; omega
  have hw1 : o.printer.extrusionWidth ≤ 2 ^ 34 := hm.width.2.trans (by norm_num)
  have hws : solid.lineWidth = o.printer.extrusionWidth := hw solid (by simp)
  refine ⟨body, m, moves, hb1, hb2, fun hmin hmax n l hl => ?_⟩
  have hnear : LayersNear enclosedBy ext.lib o tol layers := C114_areas hn hm h0 h3 (sliced_plain h2) (sliced_areas h2)
  have hl' := hnear l (List.mem_of_getElem? hl)
  obtain ⟨sl, hsl, hparts⟩ := final_parts h3 n l hl
  refine ⟨sl, hsl, fun hbed => ?_⟩
  obtain ⟨-, -, hfill, -⟩ := hb3 n l hl
  have hnp : ∀ name ∈ ["bottom", "top", "infill"], ∀ parts, l.partsAttribute name = .ok parts → ∀ part ∈ parts,
      NearParts enclosedBy ((4 + wallCount ext.lib o sl.parts) * tol) sl.parts part := by
    intro name hname parts hpa part hpart
    rw [← hparts]
    unfold Layer.partsAttribute at hpa
    split at hpa
    · cases hpa; cases hpart
    · rename_i r hr; cases hpa; exact hl'.infill name hname _ hr part hpart
    · cases hpa
  refine ⟨?_, fun hpercent => ?_⟩
  · obtain ⟨bottom, hbot, hbf⟩ := hfill (solid.fill ext.lib ext.trig) "bottom" (by simp [infillKinds, p3])
    obtain ⟨top, htop, htf⟩ := hfill (solid.fill ext.lib ext.trig) "top" (by simp [infillKinds, p4])
    refine ⟨bottom, top, hbot, htop, fun part hpart x hx hx' => ?_⟩
    obtain ⟨lines, hl1, hl2⟩ := (List.mem_append.1 hpart).elim (hbf part) (htf part)
    have hpn := (List.mem_append.1 hpart).elim (hnp "bottom" (by simp) _ hbot part) (hnp "top" (by simp) _ htop part)
    obtain ⟨e1, e2, e3⟩ := hall solid (.inl rfl)
    have := covered_part h0 hn hlib hk htrig (by rw [hsd, hws]; exact hw0) (by rw [hsd, hws]; exact hw1) (by rw [hws]; omega) (by rw [hws]; exact hw1) (by rw [e1]; exact hmin)
      (by rw [e2]; exact hmax) hbed hpn hl1 hl2 (x := x) (by rw [hz, hsd, hws]; simpa using hx) (by rw [hz, hsd, hws, e1, e2]; simpa using hx')
    rw [hsd, hws] at this
    exact this
  · obtain ⟨p, hp⟩ := Option.isSome_iff_exists.1 (hint.2 hpercent)
    subst hp
    obtain ⟨q1, q2⟩ := hinternal p rfl
    obtain ⟨parts, hpa, hpf⟩ := hfill (p.fill ext.lib ext.trig) "infill" (by simp [infillKinds, p5])
    refine ⟨p.lineDistance, parts, q2, hpa, fun hd hd' part hpart x hx hx' => ?_⟩
    obtain ⟨lines, hl1, hl2⟩ := hpf part hpart
    have hwp : p.lineWidth = o.printer.extrusionWidth := hw p (by simp)
    obtain ⟨e1, e2, e3⟩ := hall p (.inr rfl)
    exact covered_part h0 hn hlib hk htrig hd hd' (by rw [hwp]; omega) (by rw [hwp]; exact hw1) (by rw [e1]; exact hmin) (by rw [e2]; exact hmax) hbed
      (hnp "infill" (by simp) _ hpa part hpart) hl1 hl2 (x := x) (by rw [q1, hwp]; exact hx) (by rw [q1, hwp, e1, e2]; exact hx')

/-! ## Example -/

open Classical in
/-- All pieces of a vertical line which start and end at integer points and are inside of the contours. -/
noncomputable def pieces (c : List (List IntPoint)) : List IntPoint → List PolyNode
  | [u, v] =>
    if u.x = v.x then
      (List.range (u.y - v.y + 1).toNat).flatMap fun (i : Nat) => (List.range (u.y - v.y + 1).toNat).flatMap fun (j : Nat) =>
        if i ≤ j ∧ ∀ y : ℚ, (v.y + i : ℚ) ≤ y → y ≤ v.y + j → ((u.x : ℚ), y) ∈ evenOdd enclosedBy c then [.node [⟨u.x, v.y + j⟩, ⟨u.x, v.y + i⟩] []] else []
    else []
  | _ => []

/-- The library of C114 with all pieces of the lines which are inside of the area. It also keeps enlarged contours. -/
noncomputable def pieceLib : ClipperLib :=
  { soleLib with
    executeOpen := fun t s c => some (match t with
      | .intersection => s.flatMap (pieces c)
      | _ => [.node [⟨0, 0⟩, ⟨0, 0⟩] []])
    offset := fun s _ => match s with
      | [a] => [.node a []]
      | _ => [] }

theorem mem_pieces {c : List (List IntPoint)} {l : List IntPoint} {n : PolyNode} (h : n ∈ pieces c l) :
    ∃ x a b : Int, a ≤ b ∧ n = .node [⟨x, b⟩, ⟨x, a⟩] [] ∧ ∀ y : ℚ, (a : ℚ) ≤ y → y ≤ b → ((x : ℚ), y) ∈ evenOdd enclosedBy c := by
  unfold pieces at h
  split at h
  · split at h
    · obtain ⟨i, -, h⟩ := List.mem_flatMap.1 h
      obtain ⟨j, -, h⟩ := List.mem_flatMap.1 h
      split at h
      · rename_i hin
        rw [List.mem_singleton] at h
        refine ⟨_, _, _, by have := hin.1; omega, h, fun y h1 h2 => hin.2 y ?_ ?_⟩
        · push_cast at h1; exact h1
        · push_cast at h2; exact h2
      · cases h
    · cases h
  · cases h

/-- A library which satisfies all of the hypotheses of C118. -/
theorem piece_inside : KeepsInside enclosedBy pieceLib := by
  intro lines clip tree h x top bottom hl lo hi h1 h2 h3 hin
  simp only [pieceLib, Option.some.injEq] at h
  subst h
  have e1 : bottom ≤ ⌊lo⌋ := Int.le_floor.2 h2
  have e2 : ⌈hi⌉ ≤ top := Int.ceil_le.2 h3
  have e3 : ⌊lo⌋ ≤ ⌈hi⌉ := by
    have : (⌊lo⌋ : ℚ) ≤ ⌈hi⌉ := (Int.floor_le lo).trans (h1.trans (Int.le_ceil hi))
    exact_mod_cast this
  refine ⟨.node [⟨x, ⌈hi⌉⟩, ⟨x, ⌊lo⌋⟩] [], List.mem_flatMap.2 ⟨_, hl, ?_⟩, ⟨x, ⌈hi⌉⟩, ⟨x, ⌊lo⌋⟩, rfl, rfl, rfl, .inl ⟨Int.floor_le lo, Int.le_ceil hi⟩⟩
  unfold pieces
  simp only [if_true]
  refine List.mem_flatMap.2 ⟨(⌊lo⌋ - bottom).toNat, List.mem_range.2 (by omega), List.mem_flatMap.2 ⟨(⌈hi⌉ - bottom).toNat, List.mem_range.2 (by omega), ?_⟩⟩
  have f1 : (bottom : Int) + ((⌊lo⌋ - bottom).toNat : Int) = ⌊lo⌋ := by omega
  have f2 : (bottom : Int) + ((⌈hi⌉ - bottom).toNat : Int) = ⌈hi⌉ := by omega
  have g1 : (bottom : ℚ) + ((⌊lo⌋ - bottom).toNat : ℚ) = ⌊lo⌋ := by exact_mod_cast f1
  have g2 : (bottom : ℚ) + ((⌈hi⌉ - bottom).toNat : ℚ) = ⌈hi⌉ := by exact_mod_cast f2
  rw [if_pos, f1, f2]
  · simp
  · refine ⟨by omega, ?_⟩
    rw [g1, g2]
    intro y hy1 hy2
    exact hin y (by have := Int.lt_floor_add_one lo; linarith) (by have := Int.ceil_lt_add_one hi; linarith)

theorem piece_open : OpenClipping pieceLib where
  ok := fun t s c => ⟨_, rfl⟩
  lines := by
    intro s c tree h _ n hn
    simp only [pieceLib, Option.some.injEq] at h
    subst h
    obtain ⟨l, -, hn⟩ := List.mem_flatMap.1 hn
    obtain ⟨x, a, b, -, rfl, -⟩ := mem_pieces hn
    rfl

theorem piece_nothing : NothingOutside enclosedBy pieceLib 0 where
  intersection := sole_nothing.intersection
  difference := sole_nothing.difference
  union := sole_nothing.union
  inset := by
    intro s d _ _ a ha x hx
    simp only [pieceLib] at ha
    split at ha
    · cases isArea_leaf ha
      exact near_self hx
    · exact (isArea_nil ha).elim
  cut := by
    intro lines c tree h n hn x hx
    simp only [pieceLib, Option.some.injEq] at h
    subst h
    obtain ⟨l, -, hn⟩ := List.mem_flatMap.1 hn
    obtain ⟨X, a, b, hab, rfl, hin⟩ := mem_pieces hn
    obtain ⟨t, h0, h1, rfl⟩ := onPath_two.1 hx
    have hab : (a : ℚ) ≤ b := by exact_mod_cast hab
    have e : lineAt (exactPt ⟨X, b⟩) (exactPt ⟨X, a⟩) t = ((X : ℚ), b + t * (a - b)) := by unfold lineAt exactPt; ext <;> simp
    rw [e]
    exact near_self (.inl (hin _ (by nlinarith) (by nlinarith)))
  left := by
    intro a b c _ h
    simp [pieceLib] at h
  vertical := by
    intro lines c tree h _ n hn
    simp only [pieceLib, Option.some.injEq] at h
    subst h
    obtain ⟨l, -, hn⟩ := List.mem_flatMap.1 hn
    obtain ⟨X, a, b, -, rfl, -⟩ := mem_pieces hn
    simp [PolyNode.contour]

/-- The tetrahedron of C90 with this library. -/
noncomputable def pieceExt : Externals := { cornerExt with lib := pieceLib }

/-- A point of the first layer of the tetrahedron which is deep inside. -/
theorem corner_deep : Deep (400 / 2 + 5) (partContours ⟨[⟨99500, 99500⟩, ⟨100300, 99500⟩, ⟨99500, 100300⟩], []⟩) (99734, 99734) := by
  rw [deep_iff]
  constructor
  · simp [ringCross, ringSides, exactPt, cross2, RayCrosses, List.rotate]
    norm_num
  · have e : ringSides ([⟨99500, 99500⟩, ⟨100300, 99500⟩, ⟨99500, 100300⟩] : Path) =
        [(⟨99500, 99500⟩, ⟨100300, 99500⟩), (⟨100300, 99500⟩, ⟨99500, 100300⟩), (⟨99500, 100300⟩, ⟨99500, 99500⟩)] := by decide
    intro c hc s hs y hy hn
    rw [List.mem_singleton] at hc
    subst hc
    rw [e] at hs
    obtain ⟨t, h0, h1, rfl⟩ := hy
    obtain ⟨-, hn⟩ := hn
    simp only [List.mem_cons, List.not_mem_nil, or_false] at hs
    rcases hs with rfl | rfl | rfl <;> simp only [lineAt, exactPt] at hn <;> push_cast at hn
    · nlinarith [sq_nonneg ((99734 : ℚ) - (99500 + t * (100300 - 99500)))]
    · nlinarith [sq_nonneg ((99734 : ℚ) - (100300 + t * (99500 - 100300)) - (99734 - (99500 + t * (100300 - 99500))))]
    · nlinarith [sq_nonneg ((99734 : ℚ) - (100300 + t * (99500 - 100300)))]

/-- Non-vacuity of `C118_program`: the bottom of the first layer of the tetrahedron has a point which is deep inside. -/
example : ∃ t om sliced layers lo hi, gcodeOf pieceExt {} [] = .ok t ∧ optimize {} ((pieceExt.stl []).map stlTriangleToFace) = .ok om ∧ slice pieceExt.lib {} om = .ok sliced ∧
    (standardModifiers pieceExt.lib pieceExt.tan {}).foldlM (fun ls m => m ls) sliced = .ok layers ∧ om.min = .ok lo ∧ om.max = .ok hi ∧
    (∃ l part, layers[0]? = some l ∧ l.partsAttribute "bottom" = .ok [part] ∧ Deep (400 / 2 + 5) (partContours part) (99734, 99734)) ∧
    InLimits (400 / 2 + 5) lo.pointXY hi.pointXY (99734, 99734) ∧ (∀ l ∈ sliced, OnBed pieceExt.lib {} 0 l) ∧ NothingOutside enclosedBy pieceExt.lib 0 ∧
    OpenClipping pieceExt.lib ∧ KeepsInside enclosedBy pieceExt.lib ∧ TurnsBack pieceExt.trig ∧ Moderate {} ∧ Extrudes {} ∧ |({} : Options).print.infillRotationDegree| ≤ 2 ^ 31 ∧
    ({} : Options).printer.extrusionWidth = 400 := by
  have hm : cornerMesh = (soleExt.stl []).map stlTriangleToFace := by decide +kernel
  obtain ⟨t, ht⟩ := C90_gcode pieceExt {} [] sensible_default (fun _ _ _ => rfl) piece_open cornerMesh hm (by decide) (by decide) (by unfold Separated; decide +kernel)
    corner_noGap (.inr rfl)
  obtain ⟨om, sliced, layers, pt, g0, h1, h2, h3, h4, h5⟩ := gcodeOf_steps ht
  have hval : ((optimize {} ((pieceExt.stl []).map stlTriangleToFace) >>= fun om => slice pieceExt.lib {} om).map fun ls => ls.map Layer.parts) =
      .ok [[⟨[⟨99500, 99500⟩, ⟨100300, 99500⟩, ⟨99500, 100300⟩], []⟩], [⟨[⟨99500, 99500⟩, ⟨100100, 99500⟩, ⟨99500, 100100⟩], []⟩],
        [⟨[⟨99500, 99500⟩, ⟨99900, 99500⟩, ⟨99500, 99900⟩], []⟩], [], []] := by decide +kernel
  have hbot : ((optimize {} ((pieceExt.stl []).map stlTriangleToFace) >>= fun om => slice pieceExt.lib {} om >>= fun ls =>
      (standardModifiers pieceExt.lib pieceExt.tan {}).foldlM (fun ls m => m ls) ls).map fun ls => ls[0]?.map fun l => l.partsAttribute "bottom") =
      .ok (some (.ok [⟨[⟨99500, 99500⟩, ⟨100300, 99500⟩, ⟨99500, 100300⟩], []⟩])) := by decide +kernel
  have hlim : (optimize {} ((pieceExt.stl []).map stlTriangleToFace)).map (fun om => (om.min.map Vec3.pointXY, om.max.map Vec3.pointXY)) =
      .ok (.ok ⟨99500, 99500⟩, .ok ⟨100500, 100500⟩) := by decide +kernel
  rw [h1] at hval hbot hlim
  simp only [bind, Except.bind] at hval hbot
  rw [h2] at hval hbot
  simp only at hbot
  rw [h3] at hbot
  have hval : sliced.map Layer.parts = _ := Except.ok.inj hval
  have hbot : layers[0]?.map (fun l => l.partsAttribute "bottom") = _ := Except.ok.inj hbot
  obtain ⟨l, hl, hb⟩ := Option.map_eq_some_iff.1 hbot
  obtain ⟨hlo, hhi⟩ := Prod.mk.inj (Except.ok.inj hlim)
  cases hmin : om.min with
  | error e => rw [hmin] at hlo; cases hlo
  | ok lo =>
    cases hmax : om.max with
    | error e => rw [hmax] at hhi; cases hhi
    | ok hi =>
      rw [hmin] at hlo
      rw [hmax] at hhi
      have hlo : lo.pointXY = _ := Except.ok.inj hlo
      have hhi : hi.pointXY = _ := Except.ok.inj hhi
      refine ⟨t, om, sliced, layers, lo, hi, ht, h1, h2, h3, hmin, hmax, ⟨l, _, hl, hb, corner_deep⟩, ?_, ?_, piece_nothing, piece_open, piece_inside, turns_never, moderate_default,
        extrudes_default, by decide, rfl⟩
      · rw [hlo, hhi]
        unfold InLimits
        norm_num
      · intro l hl
        have hmem : l.parts ∈ sliced.map Layer.parts := List.mem_map_of_mem hl
        rw [hval] at hmem
        refine ⟨?_, by rw [mul_zero]; norm_num⟩
        generalize l.parts = ps at hmem
        revert ps
        decide

end Verif
