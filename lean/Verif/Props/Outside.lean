import Verif.Props.OutsideAreas
import Verif.Props.PrintAreaWhole

/-! # C114: nothing is printed outside of the model -/
namespace Verif
open Verif.Go Verif.Model Verif.Spec Verif.Spec.GCode

/-- The layer is on a bed of usual size: it is at most 0.9 m away from the origin, and the errors of the library sum up to at most 0.09 m. -/
structure OnBed (lib : ClipperLib) (o : Options) (tol : ℚ) (l : Layer) : Prop where
  near : ∀ part ∈ l.parts, ∀ c ∈ part.outline :: part.holes, ∀ q ∈ c, |q.x| ≤ 9 * 10 ^ 5 ∧ |q.y| ≤ 9 * 10 ^ 5
  tolerance : (5 + wallCount lib o l.parts) * tol ≤ 9 * 10 ^ 4

/-- A path of layer `n` which belongs to the brim, the skirt or the support. -/
def ExtraPath (lib : ClipperLib) (o : Options) (pt : Patterns) (n : Nat) (l : Layer) (isOpen : Bool) (path : Path) : Prop :=
  (isOpen = false ∧ ∃ brim, l.brim = .ok brim ∧ ∃ p ∈ brim.flatten.flatten, path = p.outline) ∨
  (isOpen = false ∧ n = 0 ∧ o.print.brimSkirt.skirtCount ≠ 0 ∧ ∃ walls support, l.perimeters = .ok walls ∧ l.fullSupport = .ok support ∧
    ∃ p ∈ (skirtLines lib o support walls).flatten, path = p.outline) ∨
  (isOpen = true ∧ ∃ fill name, (pt.support = some fill ∧ name = "support" ∨ pt.supportInterface = some fill ∧ name = "supportInterface") ∧
    ∃ parts, l.partsAttribute name = .ok parts ∧ ∃ part ∈ parts, ∃ lines, fill n part = .ok lines ∧ path ∈ lines)

section
variable {lib : ClipperLib} {tol : ℚ} {o : Options} {l : Layer}

theorem nearArea_box {B t : ℚ} {part : LayerPart} (hp : ∀ c ∈ part.outline :: part.holes, ∀ q ∈ c, |(q.x : ℚ)| ≤ B ∧ |(q.y : ℚ)| ≤ B) {x : ℚ × ℚ}
    (h : NearArea enclosedBy t (partContours part) x) : |x.1| ≤ B + t ∧ |x.2| ≤ B + t := by
  obtain ⟨y, hy, h0, hn⟩ := h
  have hb := touches_box hy hp
  have k1 := abs_le_of_sq_le_sq (a := x.1 - y.1) (b := t) (by nlinarith [sq_nonneg (x.2 - y.2)]) h0
  have k2 := abs_le_of_sq_le_sq (a := x.2 - y.2) (b := t) (by nlinarith [sq_nonneg (x.1 - y.1)]) h0
  have b1 := abs_le.1 hb.1
  have b2 := abs_le.1 hb.2
  rw [abs_le] at k1 k2
  rw [abs_le, abs_le]
  refine ⟨⟨?_, ?_⟩, ?_, ?_⟩ <;> linarith

/-- The ends of a line are on the path. -/
theorem onPath_ends {isOpen : Bool} {path : Path} {a b : Pt} (h : (a, b) ∈ pathLines isOpen path) : OnPath isOpen path (exactPt a) ∧ OnPath isOpen path (exactPt b) :=
  ⟨⟨a, b, h, 0, le_rfl, by norm_num, by unfold lineAt; ext <;> simp⟩, ⟨a, b, h, 1, by norm_num, le_rfl, by unfold lineAt; ext <;> simp⟩⟩

theorem bed_box (hb : OnBed lib o tol l) {t : ℚ} {x : ℚ × ℚ} (h : ∃ q ∈ l.parts, NearArea enclosedBy t (partContours q) x) :
    |x.1| ≤ 9 * 10 ^ 5 + t ∧ |x.2| ≤ 9 * 10 ^ 5 + t := by
  obtain ⟨q, hq, h⟩ := h
  refine nearArea_box (fun c hc p hp => ?_) h
  have := hb.near q hq c hc p hp
  exact ⟨by exact_mod_cast this.1, by exact_mod_cast this.2⟩

/-- A part near the sliced parts of a layer on the bed is small. -/
theorem bed_small (hb : OnBed lib o tol l) {t : ℚ} (ht : t ≤ 10 ^ 5) {p : LayerPart} (hp : NearParts enclosedBy t l.parts p) : SmallPart p := by
  intro c hc q hq
  have hon : Touches enclosedBy (partContours p) (exactPt q) := by
    refine .inr (onContour_part.2 ⟨c, hc, ?_⟩)
    obtain ⟨i, hi, rfl⟩ := List.getElem_of_mem hq
    have hlen : (ringSides c).length = c.length := by simp [ringSides]
    have : (ringSides c)[i]'(by omega) ∈ ringSides c := List.getElem_mem _
    have e : ((ringSides c)[i]'(by omega)).1 = c[i] := by simp [ringSides]
    have h1 := (onPath_ends (isOpen := false) (path := c) (a := ((ringSides c)[i]'(by omega)).1) (b := ((ringSides c)[i]'(by omega)).2) (by rw [pathLines_ring]; exact this)).1
    rwa [e] at h1
  have := bed_box hb (hp _ hon)
  simp only [exactPt] at this
  have h1 : |(q.x : ℚ)| ≤ 2 ^ 34 := this.1.trans (by norm_num; linarith)
  have h2 : |(q.y : ℚ)| ≤ 2 ^ 34 := this.2.trans (by norm_num; linarith)
  exact ⟨by exact_mod_cast h1, by exact_mod_cast h2⟩

/-- Moves along the lines of a path near the sliced parts. -/
theorem moves_near (hb : OnBed lib o tol l) {isOpen : Bool} {path : Path} {t : ℚ} (ht : t ≤ 10 ^ 5)
    (hpath : ∀ x, OnPath isOpen path x → ∃ q ∈ l.parts, NearArea enclosedBy t (partContours q) x) {a b : Pt} (hab : (a, b) ∈ pathLines isOpen path) {m m' : Machine} {z z' : Int}
    (ha : At m a z) (hb' : At m' b z') {x : ℚ × ℚ} (hx : Passes m m' x) : ∃ q ∈ l.parts, NearArea enclosedBy (73 / 10 + t) (partContours q) x := by
  obtain ⟨oa, ob⟩ := onPath_ends hab
  have b1 := bed_box hb (hpath _ oa)
  have b2 := bed_box hb (hpath _ ob)
  simp only [exactPt] at b1 b2
  have conv : ∀ u : Int, |(u : ℚ)| ≤ 9 * 10 ^ 5 + t → |u| ≤ 10 ^ 6 := by
    intro u hu
    have : |(u : ℚ)| ≤ 10 ^ 6 := by linarith
    exact_mod_cast this
  obtain ⟨y, hy, hn⟩ := passes_near ha hb' (conv _ b1.1) (conv _ b1.2) (conv _ b2.1) (conv _ b2.2) hx
  obtain ⟨q, hq, hnear⟩ := hpath y ⟨a, b, hab, hy⟩
  exact ⟨q, hq, NearArea.near hnear hn⟩

end

/-- Sliced layers have no attributes. -/
theorem sliced_plain {o : Options} {om : OptModel} {lib : ClipperLib} {ls : List Layer} (h : slice lib o om = .ok ls) : ∀ l ∈ ls, l.attrs = none := by
  obtain ⟨layers, -, h⟩ := bind_ok.1 h
  have h := mapM_ok.1 h
  intro l hl
  obtain ⟨i, hi, rfl⟩ := List.getElem_of_mem hl
  have hfin := (List.forall₂_iff_get.1 h).2 i (by rw [h.length_eq]; exact hi) hi
  simp only [List.get_eq_getElem] at hfin
  generalize ls[i] = l at *
  cases hx : layers[i]'(by rw [h.length_eq]; exact hi) with
  | none => rw [hx] at hfin; cases hfin
  | some layer =>
    rw [hx, finishLayer] at hfin
    obtain ⟨polygons, -, hfin⟩ := bind_ok.1 hfin
    obtain ⟨r, -, hfin⟩ := bind_ok.1 hfin
    cases r with
    | none => cases hfin
    | some parts => cases hfin; rfl

/-- The parts of the layers remain as they were sliced. -/
theorem final_parts {o : Options} {lib : ClipperLib} {tan : ℚ} {ls ls' : List Layer} (h : (standardModifiers lib tan o).foldlM (fun ls m => m ls) ls = .ok ls') (n : Nat) (l' : Layer)
    (hl : ls'[n]? = some l') : ∃ l, ls[n]? = some l ∧ l'.parts = l.parts := by
  have := C61_parts lib tan o _ (fun m hm => hm) ls ls' h
  have hn := congrArg (fun x => x[n]?) this
  simp only [List.getElem?_map, hl, Option.map_some] at hn
  obtain ⟨l, hl1, hl2⟩ := Option.map_eq_some_iff.1 hn.symm
  exact ⟨l, hl1, hl2.symm⟩

/-- **C114** In the G-code of the program, each point which is passed by a move which extrudes (and moves in x or y) is within 80 µm of the closed area of a sliced part of the
same layer (and a multiple of the tolerance of the library), unless the move belongs to the brim, the skirt or the support. -/
theorem C114_program (ext : Externals) (o : Options) (content t : Str) (h : gcodeOf ext o content = .ok t) {tol : ℚ} (h0 : 0 ≤ tol)
    (hn : NothingOutside enclosedBy ext.lib tol) (ho : OpenClipping ext.lib) (htrig : TurnsBack ext.trig) (hm : Moderate o) :
    ∃ om sliced layers pt, optimize o ((ext.stl content).map stlTriangleToFace) = .ok om ∧ slice ext.lib o om = .ok sliced ∧
      (standardModifiers ext.lib ext.tan o).foldlM (fun ls m => m ls) sliced = .ok layers ∧ initPatterns ext.lib ext.trig o om = .ok pt ∧
      (layers ≠ [] → ∃ body m moves, t = startText o ++ body ++ endText o ∧ run body = some (m, moves) ∧
        ∀ (k : Nat) before line, moves[k]? = some before → moves[k + 1]? = some line → line.hasE = true →
          (before.after.x ≠ line.after.x ∨ before.after.y ≠ line.after.y) →
          ∃ n sl l, sliced[n]? = some sl ∧ layers[n]? = some l ∧ ∃ isOpen path a b, (a, b) ∈ pathLines isOpen (douglasPeuckerM path (-1)) ∧
            At before.after a (layerHeight o n) ∧ At line.after b (layerHeight o n) ∧ BelongsTo ext.lib o pt n l isOpen path ∧
            ((OnBed ext.lib o tol sl → (isOpen = false → SmallPath path) → ∀ x, Passes before.after line.after x →
                ∃ part ∈ sl.parts, NearArea enclosedBy (80 + (5 + wallCount ext.lib o sl.parts) * tol) (partContours part) x) ∨
              ExtraPath ext.lib o pt n l isOpen path)) := by
  obtain ⟨om, sliced, layers, pt, g0, h1, h2, h3, h4, h5⟩ := gcodeOf_steps h
  refine ⟨om, sliced, layers, pt, h1, h2, h3, h4, fun hne => ?_⟩
  obtain ⟨body, m, moves, hb1, hb2, -, hb3⟩ := C112_only hne h5
  refine ⟨body, m, moves, hb1, hb2, fun k before line hbe hl he hmove => ?_⟩
  rcases hb3 k before line hbe hl he with ⟨e1, e2, -⟩ | ⟨n, l, isOpen, path, a, b, hln, hbel, hab, ha, hb⟩
  · exact (hmove.elim (fun h => h e1) (fun h => h e2)).elim
  have hnear : LayersNear enclosedBy ext.lib o tol layers := C114_areas hn hm h0 h3 (sliced_plain h2) (sliced_areas h2)
  have hl' := hnear l (List.mem_of_getElem? hln)
  obtain ⟨sl, hsl, hparts⟩ := final_parts h3 n l hln
  refine ⟨n, sl, l, hsl, hln, isOpen, path, a, b, hab, ha, hb, hbel, ?_⟩
  rcases hbel with ⟨rfl, walls, hwalls, p, hp, hpath⟩ | hbel | hbel | ⟨rfl, fill, name, hkind, parts, hpa, part, hpart, lines, hlines, hpath⟩
  · refine .inl fun hbed hsmall x hx => ?_
    have hw0 : walls = perimetersOf ext.lib o l.parts := by
      rcases hl'.perims _ hwalls with rfl | h
      · cases hp
      · exact h
    subst hw0
    obtain ⟨ps, hps, hp⟩ := List.mem_flatten.1 hp
    obtain ⟨w, hw, hps⟩ := List.mem_flatten.1 hps
    rw [hparts] at hw
    obtain ⟨hnp, -⟩ := C114_walls hn hm.width.1 le_rfl (sliced_areas h2 sl (List.mem_of_getElem? hsl)) w hw ps hps p hp
    rw [zero_add] at hnp
    have htol : tol ≤ (5 + wallCount ext.lib o sl.parts) * tol := by nlinarith [mul_nonneg (Nat.cast_nonneg (α := ℚ) (wallCount ext.lib o sl.parts)) h0]
    have hbt := hbed.tolerance
    obtain ⟨q, hq, hfin⟩ := moves_near hbed (path := douglasPeuckerM path (-1)) (isOpen := false) (t := 69 + tol) (by norm_num at hbt ⊢; linarith) (fun x hx => by
      obtain ⟨y, hy, hxy⟩ := C113_simplified path (hsmall rfl) false x hx
      obtain ⟨q, hq, hnq⟩ := hnp y (.inr (onContour_part.2 ⟨path, by
        simp only [List.mem_append, List.mem_cons, List.not_mem_nil, or_false] at hpath ⊢; exact hpath.symm, hy⟩))
      exact ⟨q, hq, NearArea.near hnq hxy⟩) hab ha hb hx
    exact ⟨q, hq, NearArea.mono hfin (by linarith)⟩
  · exact .inr (.inl hbel)
  · exact .inr (.inr (.inl hbel))
  · -- a line of a pattern
    obtain ⟨omin, -, h4'⟩ := bind_ok.1 h4
    obtain ⟨omax, -, h4'⟩ := bind_ok.1 h4'
    have hlin : name ∈ ["bottom", "top", "infill"] → ∃ lp : Linear, 0 ≤ lp.lineWidth ∧ fill = lp.fill ext.lib ext.trig := by
      intro hname
      unfold standardPatterns at h4'
      obtain ⟨internal, hi, h4'⟩ := bind_ok.1 h4'
      have h4' := Except.ok.inj h4'
      subst h4'
      simp only [infillKinds, List.mem_cons, Prod.mk.injEq, List.not_mem_nil, or_false] at hkind hname
      rcases hkind with ⟨h, rfl⟩ | ⟨h, rfl⟩ | ⟨h, rfl⟩ | ⟨h, rfl⟩ | ⟨h, rfl⟩
      · simp at hname
      · simp at hname
      · exact ⟨_, hm.width.1, Option.some.inj h⟩
      · exact ⟨_, hm.width.1, Option.some.inj h⟩
      · cases internal with
        | none => cases h
        | some lp =>
          refine ⟨lp, ?_, Option.some.inj h⟩
          unfold internalPattern at hi
          split at hi
          · obtain ⟨d, -, hi⟩ := bind_ok.1 hi
            cases hi
            exact hm.width.1
          · cases hi
    by_cases hname : name ∈ ["bottom", "top", "infill"]
    · obtain ⟨lp, hlw, rfl⟩ := hlin hname
      refine .inl fun hbed _ x hx => ?_
      have hnp : NearParts enclosedBy ((4 + wallCount ext.lib o sl.parts) * tol) sl.parts part := by
        rw [← hparts]
        unfold Layer.partsAttribute at hpa
        split at hpa
        · cases hpa; cases hpart
        · rename_i r hr; cases hpa; exact hl'.infill name hname _ hr part hpart
        · cases hpa
      have hbt := hbed.tolerance
      have hle : (4 + wallCount ext.lib o sl.parts) * tol ≤ (5 + wallCount ext.lib o sl.parts) * tol := by nlinarith
      have htol : tol ≤ (5 + wallCount ext.lib o sl.parts) * tol := by nlinarith [mul_nonneg (Nat.cast_nonneg (α := ℚ) (wallCount ext.lib o sl.parts)) h0]
      obtain ⟨hlen, hfill⟩ := C114_fill h0 (by norm_num at hbt ⊢; linarith) hn ho htrig lp hlw n (bed_small hbed (by norm_num at hbt ⊢; linarith) hnp) _ hlines path hpath
      rw [C05_int64_short path _ hlen.le] at hab
      obtain ⟨q, hq, hfin⟩ := moves_near hbed (path := path) (isOpen := true) (t := 5 / 2 + tol + (4 + wallCount ext.lib o sl.parts) * tol)
        (by norm_num at hbt ⊢; linarith) (fun x hx => by
          obtain ⟨y, hy, hxy⟩ := hfill x hx
          obtain ⟨q, hq, hnq⟩ := hnp y hy
          exact ⟨q, hq, NearArea.near hnq hxy⟩) hab ha hb hx
      exact ⟨q, hq, NearArea.mono hfin (by linarith)⟩
    · refine .inr (.inr (.inr ⟨rfl, fill, name, ?_, parts, hpa, part, hpart, lines, hlines, hpath⟩))
      simp only [infillKinds, List.mem_cons, Prod.mk.injEq, List.not_mem_nil, or_false] at hkind hname
      tauto

/-! ## Examples -/

/-- A library which keeps single contours, cuts lines by the square of 10 mm, and replaces lines by a point of other contours. -/
def soleLib : ClipperLib where
  execute := fun t s c => some (match t, s, c with
    | .union, [a], [] => [.node a []]
    | .union, [], [a] => [.node a []]
    | .difference, [a], [] => [.node a []]
    | .intersection, [_], [a] => [.node a []]
    | _, _, _ => [])
  executeOpen := fun t s c => some (match t, c with
    | .intersection, [p :: rest] =>
      if p :: rest = squareContour 0 10000 then
        s.flatMap fun l => match l with
          | [u, _] => if 0 ≤ u.x ∧ u.x ≤ 10000 then [.node [⟨u.x, 10000⟩, ⟨u.x, 0⟩] []] else []
          | _ => []
      else s.map fun _ => .node [p, p] []
    | .difference, _ => [.node [⟨0, 0⟩, ⟨0, 0⟩] []]
    | _, _ => [])
  offset := fun s d => if d ≤ 0 then (match s with
    | [a] => [.node a []]
    | _ => []) else []
  hull := id

theorem isArea_leaf {c : List IntPoint} {a : List (List IntPoint)} (h : IsArea [.node c []] a) : a = [c] := by
  obtain ⟨root, hr, n, hn, rfl⟩ := h
  rw [List.mem_singleton] at hr
  subst hr
  have : ∀ root n, EvenBelow root n → root = .node c [] → n = .node c [] := by
    intro root n h
    induction h with
    | refl => exact id
    | step h hc hg ih =>
      intro he
      rw [ih he] at hc
      cases hc
  rw [this _ _ hn rfl]
  rfl

theorem isArea_nil {a : List (List IntPoint)} (h : IsArea [] a) : False := by
  obtain ⟨root, hr, -⟩ := h
  cases hr

/-- The points of a square. -/
theorem touches_square {x : ℚ × ℚ} (h1 : 0 ≤ x.1) (h2 : x.1 ≤ 10000) (h3 : 0 ≤ x.2) (h4 : x.2 ≤ 10000) : Touches enclosedBy [squareContour 0 10000] x := by
  have hside : ∀ a b : Pt, (a, b) ∈ pathLines false [⟨0, 0⟩, ⟨10000, 0⟩, ⟨10000, 10000⟩, ⟨0, 10000⟩] → OnSegment (exactPt a) (exactPt b) x →
      Touches enclosedBy [squareContour 0 10000] x := fun a b hab hx => .inr ⟨squareContour 0 10000, by simp, a, b, hab, hx⟩
  by_cases e1 : x.2 = 0
  · exact hside ⟨0, 0⟩ ⟨10000, 0⟩ (by decide) ⟨x.1 / 10000, by linarith, by linarith, by unfold lineAt exactPt; ext <;> simp; linarith⟩
  by_cases e2 : x.1 = 10000
  · exact hside ⟨10000, 0⟩ ⟨10000, 10000⟩ (by decide) ⟨x.2 / 10000, by linarith, by linarith, by unfold lineAt exactPt; ext <;> simp; linarith⟩
  by_cases e3 : x.2 = 10000
  · exact hside ⟨10000, 10000⟩ ⟨0, 10000⟩ (by decide) ⟨1 - x.1 / 10000, by linarith, by linarith, by unfold lineAt exactPt; ext <;> simp <;> linarith⟩
  refine .inl ((mem_region_ring ⟨[⟨0, 0⟩, ⟨10000, 0⟩, ⟨10000, 10000⟩, ⟨0, 10000⟩], []⟩ x).2 ?_)
  have p1 : 0 < x.2 := lt_of_le_of_ne h3 (Ne.symm e1)
  have p2 : x.1 < 10000 := lt_of_le_of_ne h2 e2
  have p3 : x.2 < 10000 := lt_of_le_of_ne h4 e3
  simp [ringCross, ringSides, exactPt, cross2, RayCrosses, List.rotate, p2, p3, not_lt.2 h1, not_lt.2 h3]

theorem near_self {c : List (List IntPoint)} {x : ℚ × ℚ} (h : Touches enclosedBy c x) : NearArea enclosedBy 0 c x := ⟨x, h, NearPt.refl le_rfl x⟩

theorem sole_nothing : NothingOutside enclosedBy soleLib 0 where
  intersection := by
    intro s c tree h a ha x hx
    simp only [soleLib, Option.some.injEq] at h
    subst h
    split at ha <;> first | exact (isArea_nil ha).elim | skip
    all_goals rename_i he; cases he
    cases isArea_leaf ha
    exact near_self hx
  difference := by
    intro s c tree h a ha x hx
    simp only [soleLib, Option.some.injEq] at h
    subst h
    split at ha <;> first | exact (isArea_nil ha).elim | skip
    all_goals rename_i he; cases he
    cases isArea_leaf ha
    exact near_self hx
  union := by
    intro s c tree h a ha x hx
    simp only [soleLib, Option.some.injEq] at h
    subst h
    split at ha <;> first | exact (isArea_nil ha).elim | skip
    all_goals first | (rename_i he; cases he; done) | skip
    · cases isArea_leaf ha
      exact .inl (near_self hx)
    · cases isArea_leaf ha
      exact .inr (near_self hx)
  inset := by
    intro s d _ hd a ha x hx
    simp only [soleLib, if_pos hd] at ha
    split at ha
    · cases isArea_leaf ha
      exact near_self hx
    · exact (isArea_nil ha).elim
  cut := by
    intro lines c tree h n hn x hx
    simp only [soleLib, Option.some.injEq] at h
    subst h
    split at hn
    · rename_i p rest _
      split at hn
      · rename_i hsq
        obtain ⟨l, -, hn⟩ := List.mem_flatMap.1 hn
        split at hn
        · split at hn
          · rename_i u _ hu
            rw [List.mem_singleton] at hn
            subst hn
            rw [hsq]
            refine near_self ?_
            obtain ⟨t, h0, h1, rfl⟩ := onPath_two.1 hx
            have k1 : (0 : ℚ) ≤ u.x := by exact_mod_cast hu.1
            have k2 : (u.x : ℚ) ≤ 10000 := by exact_mod_cast hu.2
            refine touches_square ?_ ?_ ?_ ?_ <;> simp only [lineAt, exactPt] <;> push_cast <;> linarith
          · cases hn
        · cases hn
      · obtain ⟨l, -, rfl⟩ := List.mem_map.1 hn
        refine near_self (.inr ⟨p :: rest, by simp, ?_⟩)
        obtain ⟨t, -, -, rfl⟩ := onPath_two.1 hx
        have e : lineAt (exactPt ⟨p.x, p.y⟩) (exactPt ⟨p.x, p.y⟩) t = exactPt ⟨p.x, p.y⟩ := by unfold lineAt; ext <;> simp
        rw [e]
        obtain ⟨b, hb⟩ : ∃ b, (⟨p.x, p.y⟩, b) ∈ pathLines false (asPath (p :: rest)) := by
          cases rest with
          | nil => exact ⟨⟨p.x, p.y⟩, by simp [asPath, pathLines]⟩
          | cons q rest => exact ⟨⟨q.x, q.y⟩, by simp [asPath, pathLines]⟩
        exact (onPath_ends hb).1
    · exact absurd ‹ClipType.intersection = ClipType.difference› (by decide)
    · cases hn
  left := by
    intro a b c _ h
    simp [soleLib] at h
  vertical := by
    intro lines c tree h _ n hn
    simp only [soleLib, Option.some.injEq] at h
    subst h
    split at hn
    · split at hn
      · obtain ⟨l, -, hn⟩ := List.mem_flatMap.1 hn
        split at hn
        · split at hn
          · rw [List.mem_singleton] at hn
            subst hn
            simp [PolyNode.contour]
          · cases hn
        · cases hn
      · obtain ⟨l, -, rfl⟩ := List.mem_map.1 hn
        simp [PolyNode.contour]
    · exact absurd ‹ClipType.intersection = ClipType.difference› (by decide)
    · cases hn

theorem sole_open : OpenClipping soleLib where
  ok := fun t s c => ⟨_, rfl⟩
  lines := by
    intro s c tree h _ n hn
    simp only [soleLib, Option.some.injEq] at h
    subst h
    split at hn
    · split at hn
      · obtain ⟨l, -, hn⟩ := List.mem_flatMap.1 hn
        split at hn
        · split at hn
          · rw [List.mem_singleton] at hn
            subst hn
            rfl
          · cases hn
        · cases hn
      · obtain ⟨l, -, rfl⟩ := List.mem_map.1 hn
        rfl
    · exact absurd ‹ClipType.intersection = ClipType.difference› (by decide)
    · cases hn

/-- The tetrahedron of C90 with this library. -/
def soleExt : Externals := { cornerExt with lib := soleLib }

/-- Non-vacuity of `C114_fill`: the lines of the square of 10 mm. -/
example : ((⟨4000, 400, 0, ⟨0, 0⟩, ⟨10000, 10000⟩, false, false⟩ : Linear).fill soleLib (fun _ => (0, 1)) 0
      ⟨[⟨0, 0⟩, ⟨10000, 0⟩, ⟨10000, 10000⟩, ⟨0, 10000⟩], []⟩).map List.length = .ok 3 ∧
    Yields ((⟨4000, 400, 0, ⟨0, 0⟩, ⟨10000, 10000⟩, false, false⟩ : Linear).fill soleLib (fun _ => (0, 1)) 0 ⟨[⟨0, 0⟩, ⟨10000, 0⟩, ⟨10000, 10000⟩, ⟨0, 10000⟩], []⟩)
      fun paths => ∀ path ∈ paths, path.length = 2 ∧ ∀ x, OnPath true path x →
        NearArea enclosedBy (5 / 2 + 0) (partContours ⟨[⟨0, 0⟩, ⟨10000, 0⟩, ⟨10000, 10000⟩, ⟨0, 10000⟩], []⟩) x :=
  ⟨by decide +kernel, C114_fill le_rfl (by norm_num) sole_nothing sole_open turns_never _ (by decide) 0 (by unfold SmallPart; decide)⟩

/-- Non-vacuity of `C114_program`: the tetrahedron of 1 mm with the default options has three layers with two walls each, and its layers are on the bed. -/
example : ∃ t om sliced, gcodeOf soleExt {} [] = .ok t ∧ optimize {} ((soleExt.stl []).map stlTriangleToFace) = .ok om ∧ slice soleExt.lib {} om = .ok sliced ∧
    (sliced.map fun l => wallCount soleExt.lib {} l.parts) = [2, 2, 2, 0, 0] ∧ (∀ l ∈ sliced, OnBed soleExt.lib {} 0 l) ∧ NothingOutside enclosedBy soleExt.lib 0 ∧
    OpenClipping soleExt.lib ∧ TurnsBack soleExt.trig ∧ Moderate {} := by
  have hm : cornerMesh = (soleExt.stl []).map stlTriangleToFace := by decide +kernel
  obtain ⟨t, ht⟩ := C90_gcode soleExt {} [] sensible_default (fun _ _ _ => rfl) sole_open cornerMesh hm (by decide) (by decide) (by unfold Separated; decide +kernel)
    corner_noGap (.inr rfl)
  obtain ⟨om, sliced, layers, pt, g0, h1, h2, h3, h4, h5⟩ := gcodeOf_steps ht
  have hval : ((optimize {} ((soleExt.stl []).map stlTriangleToFace) >>= fun om => slice soleExt.lib {} om).map fun ls => ls.map Layer.parts) =
      .ok [[⟨[⟨99500, 99500⟩, ⟨100300, 99500⟩, ⟨99500, 100300⟩], []⟩], [⟨[⟨99500, 99500⟩, ⟨100100, 99500⟩, ⟨99500, 100100⟩], []⟩],
        [⟨[⟨99500, 99500⟩, ⟨99900, 99500⟩, ⟨99500, 99900⟩], []⟩], [], []] := by decide +kernel
  rw [h1] at hval
  simp only [bind, Except.bind] at hval
  rw [h2] at hval
  have hval : sliced.map Layer.parts = _ := Except.ok.inj hval
  refine ⟨t, om, sliced, ht, h1, h2, ?_, ?_, sole_nothing, sole_open, turns_never, moderate_default⟩
  · have := congrArg (List.map fun ps => wallCount soleExt.lib {} ps) hval
    rw [List.map_map] at this
    exact this.trans (by decide +kernel)
  · intro l hl
    have hmem : l.parts ∈ sliced.map Layer.parts := List.mem_map_of_mem hl
    rw [hval] at hmem
    refine ⟨?_, by rw [mul_zero]; norm_num⟩
    generalize l.parts = ps at hmem
    revert ps
    decide

end Verif
