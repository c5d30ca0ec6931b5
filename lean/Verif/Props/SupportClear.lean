import Verif.Spec.Clear
import Verif.Props.Outside
import Verif.Props.Support

/-! # C115: printed support keeps its distance from the model -/
namespace Verif
open Verif.Go Verif.Model Verif.Spec Verif.Spec.GCode

/-- Each point of the closed area of the part `p` is within the distance `t` of a point which is not in the region of the parts `free`. -/
def NearFree (inside : List IntPoint → Set (ℚ × ℚ)) (t : ℚ) (free : List LayerPart) (p : LayerPart) : Prop :=
  ∀ x, Touches inside (partContours p) x → ∃ y, y ∉ region inside free ∧ NearPt t x y

section
variable {inside : List IntPoint → Set (ℚ × ℚ)} {lib : ClipperLib} {tol t : ℚ} {o : Options}

theorem NearFree.mono {t' : ℚ} {free : List LayerPart} {p : LayerPart} (h : NearFree inside t free p) (ht : t ≤ t') : NearFree inside t' free p := by
  intro x hx
  obtain ⟨y, hy, hn⟩ := h x hx
  exact ⟨y, hy, hn.mono ht⟩

theorem removed_free (hc : KeepsClear inside lib tol) {a b r : List LayerPart} (h : lib.difference a b = some r) : ∀ p ∈ r, NearFree inside tol b p := by
  unfold ClipperLib.difference ClipperLib.runClipper at h
  split at h
  · cases h; intro p hp; cases hp
  · obtain ⟨tree, htree, rfl⟩ := Option.map_eq_some_iff.1 h
    intro p hp x hx
    exact hc.removed _ _ _ htree _ (isArea_part hp) x hx

theorem difference_free (hn : NothingOutside inside lib tol) {free a b r : List LayerPart} (h : lib.difference a b = some r) (ha : ∀ p ∈ a, NearFree inside t free p) :
    ∀ p ∈ r, NearFree inside (t + tol) free p := by
  unfold ClipperLib.difference ClipperLib.runClipper at h
  split at h
  · cases h; intro p hp; cases hp
  · obtain ⟨tree, htree, rfl⟩ := Option.map_eq_some_iff.1 h
    intro p hp x hx
    obtain ⟨y, hy, hxy⟩ := hn.difference _ _ _ htree _ (isArea_part hp) x hx
    obtain ⟨q, hq, hy⟩ := touches_parts hy
    obtain ⟨z, hz, hyz⟩ := ha q hq y hy
    refine ⟨z, hz, ?_⟩
    rw [add_comm]
    exact hxy.trans hyz

/-- The interface and the remaining support of a layer. -/
theorem interface_free (hn : NothingOutside inside lib tol) (h0 : 0 ≤ tol) {ls : List Layer} {n : Nat} {below : Layer} {free actual : List LayerPart}
    (ha : ∀ p ∈ actual, NearFree inside t free p) :
    Yields (supportInterface lib o ls n below actual) fun r => (∀ p ∈ r.1, NearFree inside (t + 2 * tol) free p) ∧ ∀ p ∈ r.2, NearFree inside (t + 2 * tol) free p := by
  intro r h
  unfold supportInterface at h
  split at h
  · cases h
    exact ⟨fun p hp => (by cases hp), fun p hp => (by cases hp)⟩
  · simp only [bind_ok] at h
    obtain ⟨above, -, supportAbove, -, interface, hi, rest, hr, brim, -, h⟩ := h
    have f1 := difference_free hn (orErr_ok hi) ha
    have f2 := difference_free hn (orErr_ok hr) ha
    have e : t + 2 * tol = t + tol + tol := by ring
    split at h
    · cases h
      exact ⟨fun p hp => (f1 p hp).mono (by linarith), fun p hp => (f2 p hp).mono (by linarith)⟩
    · cases h
      have key : ∀ a, (∀ p ∈ a, NearFree inside (t + tol) free p) → ∀ p ∈ (lib.difference a brim).getD [], NearFree inside (t + 2 * tol) free p := by
        intro a haf p hp
        cases hd : lib.difference a brim with
        | none => rw [hd] at hp; cases hp
        | some r => rw [hd] at hp; rw [e]; exact difference_free hn hd haf p hp
      exact ⟨key _ f1, key _ f2⟩

/-- The support of the layer is near points outside of the enlarged model. -/
def SupportFree (inside : List IntPoint → Set (ℚ × ℚ)) (lib : ClipperLib) (o : Options) (tol : ℚ) (l : Layer) : Prop :=
  ∀ name ∈ ["support", "supportInterface"], ∀ ps, l.partsAttribute name = .ok ps → ∀ p ∈ ps, NearFree inside (3 * tol) (biggerLayer lib o l) p

theorem setSupport_parts (l : Layer) (a i r : List LayerPart) : (setSupport l a i r).parts = l.parts := by
  unfold setSupport
  rw [show ∀ (l : Layer) n v, (l.set n v).parts = l.parts from fun l n v => by cases l with | mk p a => cases a <;> rfl, parts_setParts, parts_setParts]
  cases l with | mk p a => cases a <;> rfl

theorem generatorStep_free (hn : NothingOutside inside lib tol) (hc : KeepsClear inside lib tol) (h0 : 0 ≤ tol) {cur : List Layer} {last : List LayerPart} {r : List Layer × List LayerPart}
    {m : Nat} (h : generatorStep lib o (m + 1) cur last = .ok r) (hno : ∀ l, cur[m]? = some l → l.attr "fullSupport" = none ∧ l.attr "supportInterface" = none) :
    ∀ l, r.1[m]? = some l → SupportFree inside lib o tol l := by
  simp only [generatorStep, bind_ok] at h
  obtain ⟨layer, hlay, below, hbel, current, hcur, bs, hbs, h⟩ := h
  have hbel : cur[m]? = some below := by
    have := (index_ok hbel).2
    have e : (((m + 1 : Nat) : Int) - 1).toNat = m := by omega
    rwa [e] at this
  obtain ⟨n1, n2⟩ := hno below hbel
  split at h
  · next hz =>
    cases h
    intro l hl name hname ps hps p hp
    simp only at hl
    rw [hbel] at hl
    cases hl
    simp only [List.mem_cons, List.not_mem_nil, or_false] at hname
    rcases hname with rfl | rfl
    · rw [hbs] at hps
      cases hps
      rw [List.length_eq_zero_iff.1 hz.2] at hp
      cases hp
    · rw [(C68_parts below _).2.1 n2] at hps
      cases hps
      cases hp
  · simp only [bind_ok, pure, Except.pure, Except.ok.injEq] at h
    obtain ⟨result, hres, actual, hact, parts, hparts, rfl⟩ := h
    obtain ⟨-, a2, a3, -⟩ := setSupport_attrs below actual parts.1 parts.2 n1 n2
    have hlt : m < cur.length := (List.getElem?_eq_some_iff.1 hbel).1
    intro l hl
    rw [show (cur.set (m + 1 - 1) (setSupport below actual parts.1 parts.2))[m]? = some (setSupport below actual parts.1 parts.2) by simp [hlt]] at hl
    cases hl
    have hb : biggerLayer lib o (setSupport below actual parts.1 parts.2) = biggerLayer lib o below := by unfold biggerLayer; rw [setSupport_parts]
    obtain ⟨p1, p2⟩ := interface_free hn h0 (removed_free hc (orErr_ok hact)) _ hparts
    rw [show tol + 2 * tol = 3 * tol by ring] at p1 p2
    intro name hname ps hps
    rw [hb]
    simp only [List.mem_cons, List.not_mem_nil, or_false] at hname
    rcases hname with rfl | rfl
    · rw [a3] at hps; cases hps; exact p2
    · rw [a2] at hps; cases hps; exact p1

theorem generatorLoop_free (hn : NothingOutside inside lib tol) (hc : KeepsClear inside lib tol) (h0 : 0 ≤ tol) {n : Nat} {cur ls' : List Layer} {last : List LayerPart}
    (h : generatorLoop lib o n cur last = .ok ls') (hno : ∀ j < n, ∀ l, cur[j]? = some l → l.attr "fullSupport" = none ∧ l.attr "supportInterface" = none) :
    ∀ j < n, ∀ l, ls'[j]? = some l → SupportFree inside lib o tol l := by
  induction n generalizing cur last with
  | zero => intro j hj; omega
  | succ n ih =>
    simp only [generatorLoop, bind_ok] at h
    obtain ⟨r, hr, h⟩ := h
    have hkeep := generatorStep_keeps lib o _ _ _ _ hr
    intro j hj l hl
    by_cases hjn : j = n
    · subst hjn
      rw [generatorLoop_keeps lib o _ _ _ _ h j le_rfl] at hl
      exact generatorStep_free hn hc h0 hr (hno j hj) l hl
    · exact ih h (fun i hi l hl => hno i (by omega) l (by rw [← hkeep i (by omega)]; exact hl)) j (by omega) l hl

/-- **C115** After all modifiers, the areas of support and interface of a layer are near points outside of the enlarged model. This holds for all layers but the two on top,
and with a top gap for all layers. -/
theorem C115_areas (hn : NothingOutside inside lib tol) (hc : KeepsClear inside lib tol) (h0 : 0 ≤ tol) {tan : ℚ} {ls ls' : List Layer}
    (h : (standardModifiers lib tan o).foldlM (fun ls m => m ls) ls = .ok ls') (hplain : ∀ l ∈ ls, l.attrs = none) (n : Nat) (l : Layer) (hl : ls'[n]? = some l)
    (hgap : n + 2 < ls'.length ∨ 1 ≤ o.print.support.topGapLayers) : SupportFree inside lib o tol l := by
  simp only [standardModifiers, List.foldlM_cons, List.foldlM_nil, bind_ok, pure, Except.pure, Except.ok.injEq] at h
  obtain ⟨l1, h1, l2, h2, l3, h3, l4, h4, l5, h5, l6, h6, rfl⟩ := h
  have s4 : SameLayersBut ["perimeters", "overlapPerimeters", "bottom", "top", "infill", "brim", "outerBrim"] ls l4 :=
    ((C61_perimeter _ _ _ _ h1).mono (by simp)).trans <| ((C61_infill _ _ _ _ h2).mono (by simp)).trans <| ((C61_internal _ _ _ _ h3).mono (by simp)).trans
      ((C61_brim _ _ _ _ h4).mono (by simp))
  have attr_of : ∀ {names : List String} {a b : List Layer}, SameLayersBut names a b → ∀ (j : Nat) (lb : Layer), b[j]? = some lb → ∃ la, a[j]? = some la ∧ SameBut names la lb := by
    intro names a b hs j lb hb
    obtain ⟨hj, rfl⟩ := List.getElem?_eq_some_iff.1 hb
    have hj' : j < a.length := by rw [hs.length_eq]; exact hj
    have := (List.forall₂_iff_get.1 hs).2 j hj' hj
    exact ⟨a[j], List.getElem?_eq_getElem hj', this⟩
  have no4 : ∀ (j : Nat) (l : Layer), l4[j]? = some l → ∀ name ∈ ["support", "supportInterface", "fullSupport"], l.attr name = none := by
    intro j l hl name hname
    obtain ⟨la, hla, -, hat⟩ := attr_of s4 j l hl
    rw [hat name (by simp only [List.mem_cons, List.not_mem_nil, or_false] at hname; rcases hname with rfl | rfl | rfl <;> decide)]
    unfold Layer.attr
    rw [hplain la (List.mem_of_getElem? hla)]
    rfl
  have s5 := C61_detector _ _ _ _ _ h5
  have no5 : ∀ (j : Nat) (l : Layer), l5[j]? = some l → l.attr "fullSupport" = none ∧ l.attr "supportInterface" = none := by
    intro j l hl
    obtain ⟨la, hla, -, hat⟩ := attr_of s5 j l hl
    rw [hat _ (by decide), hat _ (by decide)]
    exact ⟨no4 j la hla _ (by simp), no4 j la hla _ (by simp)⟩
  have nothing : (∀ name ∈ ["support", "supportInterface", "fullSupport"], l.attr name = none) → SupportFree inside lib o tol l := by
    intro hno name hname ps hps p hp
    rw [(C68_parts l _).2.1 (hno name (by simp only [List.mem_cons, List.not_mem_nil, or_false] at hname ⊢; tauto))] at hps
    cases hps
    cases hp
  have len6 : l5.length = l6.length := (C61_generator _ _ _ _ h6).length_eq
  cases hen : o.print.support.enabled with
  | false =>
    obtain ⟨e1, -⟩ := C66_disabled lib tan o l4 hen
    rw [e1] at h5
    cases h5
    obtain ⟨-, e2⟩ := C66_disabled lib tan o l4 hen
    rw [e2] at h6
    cases h6
    exact nothing (no4 n l hl)
  | true =>
    have h6' := h6
    unfold supportGenerator at h6'
    rw [if_pos hen] at h6'
    by_cases hlow : n + 2 < l6.length
    · exact generatorLoop_free hn hc h0 h6' (fun j _ l hl => no5 j l hl) n (by omega) l hl
    · rw [generatorLoop_keeps lib o _ _ _ _ h6' n (by omega)] at hl
      have hg := hgap.resolve_left hlow
      obtain ⟨g, hg'⟩ : ∃ g : Nat, o.print.support.topGapLayers = g := ⟨o.print.support.topGapLayers.toNat, by omega⟩
      rw [(C86_detected lib tan o g hg' hen _ _ h5 n).1 (by rw [s5.length_eq]; omega)] at hl
      exact nothing (no4 n l hl)

/-- A point outside of the enlarged parts keeps the distance from the parts, if the enlarged parts do not overlap. -/
theorem bigger_apart (hc : KeepsClear inside lib tol) {l : Layer} (ha : ∀ p ∈ l.parts, LibArea lib (partContours p)) (hsep : Separate inside (biggerLayer lib o l))
    (hg : |toMicrometer o.print.support.gap| ≤ 2 ^ 53) (ht : 0 ≤ tol) {y : ℚ × ℚ} (hy : y ∉ region inside (biggerLayer lib o l)) {part : LayerPart} (hp : part ∈ l.parts) {z : ℚ × ℚ}
    (hz : Touches inside (partContours part) z) : Apart ((((toMicrometer o.print.support.gap).tdiv 2 : Int) : ℚ) - tol) y z := by
  by_contra hap
  have hd : (0 : ℚ) ≤ (((toMicrometer o.print.support.gap).tdiv 2 : Int) : ℚ) := by
    unfold Apart at hap
    rw [not_or, not_le] at hap
    linarith [hap.1]
  have hin := hc.enlarged _ _ (ha part hp) hd z hz y hap
  rw [← region_polyTree] at hin
  refine hy ?_
  rw [region_separate inside _ hsep]
  rw [C82_gap lib o l hg]
  have : ∃ q ∈ polyTreeToLayerParts (lib.offset (partContours part) (((toMicrometer o.print.support.gap).tdiv 2 : Int) : ℚ)), y ∈ region inside [q] := by
    revert hin
    generalize polyTreeToLayerParts (lib.offset (partContours part) (((toMicrometer o.print.support.gap).tdiv 2 : Int) : ℚ)) = ps
    induction ps with
    | nil => simp
    | cons p ps ih =>
      intro h
      by_cases hp : y ∈ region inside [p]
      · exact ⟨p, List.mem_cons_self, hp⟩
      · rw [show p :: ps = [p] ++ ps from rfl, mem_region_append] at h
        obtain ⟨q, hq, hqx⟩ := ih (by tauto)
        exact ⟨q, List.mem_cons_of_mem _ hq, hqx⟩
  obtain ⟨q, hq, hqy⟩ := this
  exact ⟨q, List.mem_flatMap.2 ⟨part, hp, hq⟩, hqy⟩

end

/-- A path of layer `n` which belongs to the support. -/
def SupportPath (pt : Patterns) (n : Nat) (l : Layer) (isOpen : Bool) (path : Path) : Prop :=
  isOpen = true ∧ ∃ fill name, (pt.support = some fill ∧ name = "support" ∨ pt.supportInterface = some fill ∧ name = "supportInterface") ∧
    ∃ parts, l.partsAttribute name = .ok parts ∧ ∃ part ∈ parts, ∃ lines, fill n part = .ok lines ∧ path ∈ lines

/-- The support of the layer is on a bed of usual size. -/
def SupportOnBed (l : Layer) : Prop := ∀ name ∈ ["support", "supportInterface"], ∀ ps, l.partsAttribute name = .ok ps → ∀ part ∈ ps, ∀ c ∈ part.outline :: part.holes, ∀ q ∈ c,
  |q.x| ≤ 9 * 10 ^ 5 ∧ |q.y| ≤ 9 * 10 ^ 5

/-- **C115** In the G-code of the program, each point which is passed by a move which extrudes (and moves in x or y) and belongs to the support has at least the distance
`gap / 2 - 10 µm` (minus five times the tolerance of the library) from each sliced part of the same layer, if the enlarged parts of the layer do not overlap. This holds for all layers but the two
on top, and with a top gap for all layers. -/
theorem C115_program (ext : Externals) (o : Options) (content t : Str) (h : gcodeOf ext o content = .ok t) {tol : ℚ} (h0 : 0 ≤ tol) (h1 : tol ≤ 10 ^ 4)
    (hn : NothingOutside enclosedBy ext.lib tol) (hc : KeepsClear enclosedBy ext.lib tol) (ho : OpenClipping ext.lib) (htrig : TurnsBack ext.trig) (hm : Moderate o)
    (hg : |toMicrometer o.print.support.gap| ≤ 2 ^ 53) :
    ∃ om sliced layers pt, optimize o ((ext.stl content).map stlTriangleToFace) = .ok om ∧ slice ext.lib o om = .ok sliced ∧
      (standardModifiers ext.lib ext.tan o).foldlM (fun ls m => m ls) sliced = .ok layers ∧ initPatterns ext.lib ext.trig o om = .ok pt ∧
      (layers ≠ [] → ∃ body m moves, t = startText o ++ body ++ endText o ∧ run body = some (m, moves) ∧
        ∀ (k : Nat) before line, moves[k]? = some before → moves[k + 1]? = some line → line.hasE = true →
          (before.after.x ≠ line.after.x ∨ before.after.y ≠ line.after.y) →
          ∃ n sl l, sliced[n]? = some sl ∧ layers[n]? = some l ∧ ∃ isOpen path a b, (a, b) ∈ pathLines isOpen (douglasPeuckerM path (-1)) ∧
            At before.after a (layerHeight o n) ∧ At line.after b (layerHeight o n) ∧ BelongsTo ext.lib o pt n l isOpen path ∧
            (SupportPath pt n l isOpen path → (n + 2 < layers.length ∨ 1 ≤ o.print.support.topGapLayers) → SupportOnBed l → Separate enclosedBy (biggerLayer ext.lib o sl) →
              ∀ x, Passes before.after line.after x → ∀ part ∈ sl.parts, ∀ z, Touches enclosedBy (partContours part) z →
                Apart ((((toMicrometer o.print.support.gap).tdiv 2 : Int) : ℚ) - 10 - 5 * tol) x z)) := by
  obtain ⟨om, sliced, layers, pt, g0, hs1, h2, h3, h4, h5⟩ := gcodeOf_steps h
  refine ⟨om, sliced, layers, pt, hs1, h2, h3, h4, fun hne => ?_⟩
  obtain ⟨body, m, moves, hb1, hb2, -, hb3⟩ := C112_only hne h5
  refine ⟨body, m, moves, hb1, hb2, fun k before line hbe hl he hmove => ?_⟩
  rcases hb3 k before line hbe hl he with ⟨e1, e2, -⟩ | ⟨n, l, isOpen, path, a, b, hln, hbel, hab, ha, hb⟩
  · exact (hmove.elim (fun h => h e1) (fun h => h e2)).elim
  obtain ⟨sl, hsl, hparts⟩ := final_parts h3 n l hln
  refine ⟨n, sl, l, hsl, hln, isOpen, path, a, b, hab, ha, hb, hbel, ?_⟩
  rintro ⟨rfl, fill, name, hkind, parts, hpa, part, hpart, lines, hlines, hpath⟩ hgap hbed hsep x hx part' hpart' z hz
  have hfree := C115_areas hn hc h0 h3 (sliced_plain h2) n l hln hgap
  have hname : name ∈ ["support", "supportInterface"] := by rcases hkind with ⟨-, rfl⟩ | ⟨-, rfl⟩ <;> simp
  have hlin : ∃ lp : Linear, 0 ≤ lp.lineWidth ∧ fill = lp.fill ext.lib ext.trig := by
    obtain ⟨omin, -, h4'⟩ := bind_ok.1 h4
    obtain ⟨omax, -, h4'⟩ := bind_ok.1 h4'
    unfold standardPatterns at h4'
    obtain ⟨internal, hi, h4'⟩ := bind_ok.1 h4'
    have h4' := Except.ok.inj h4'
    subst h4'
    rcases hkind with ⟨h, -⟩ | ⟨h, -⟩
    · exact ⟨_, hm.width.1, (Option.some.inj h).symm⟩
    · exact ⟨_, hm.width.1, (Option.some.inj h).symm⟩
  obtain ⟨lp, hlw, rfl⟩ := hlin
  have hb9 := hbed name hname _ hpa part hpart
  have hsmall : SmallPart part := fun c hc q hq => ⟨(hb9 c hc q hq).1.trans (by norm_num), (hb9 c hc q hq).2.trans (by norm_num)⟩
  obtain ⟨hlen, hfill⟩ := C114_fill h0 (h1.trans (by norm_num)) hn ho htrig lp hlw n hsmall _ hlines path hpath
  rw [C05_int64_short path _ hlen.le] at hab
  obtain ⟨oa, ob⟩ := onPath_ends hab
  have box : ∀ p : Pt, OnPath true path (exactPt p) → |p.x| ≤ 10 ^ 6 ∧ |p.y| ≤ 10 ^ 6 := by
    intro p hp
    have := nearArea_box (B := 9 * 10 ^ 5) (fun c hc q hq => ⟨by exact_mod_cast (hb9 c hc q hq).1, by exact_mod_cast (hb9 c hc q hq).2⟩) (hfill _ hp)
    simp only [exactPt] at this
    have k1 : |(p.x : ℚ)| ≤ 10 ^ 6 := this.1.trans (by norm_num at h1 ⊢; linarith)
    have k2 : |(p.y : ℚ)| ≤ 10 ^ 6 := this.2.trans (by norm_num at h1 ⊢; linarith)
    exact ⟨by exact_mod_cast k1, by exact_mod_cast k2⟩
  obtain ⟨y, hy, hxy⟩ := passes_near ha hb (box a oa).1 (box a oa).2 (box b ob).1 (box b ob).2 hx
  obtain ⟨y2, hy2, hyy⟩ := hfill y ⟨a, b, hab, hy⟩
  obtain ⟨y3, hy3, hyyy⟩ := hfree name hname _ hpa part hpart y2 hy2
  have hbl : biggerLayer ext.lib o l = biggerLayer ext.lib o sl := by unfold biggerLayer; rw [hparts]
  rw [hbl] at hy3
  have hap := bigger_apart hc (sliced_areas h2 sl (List.mem_of_getElem? hsl)) hsep hg h0 hy3 hpart' hz
  exact apart_mono (apart_of_near hap ((hxy.trans (hyy.trans hyyy)).symm)) (by linarith)

/-! ## Examples -/

/-- The smallest number of a list. -/
def lowestOf : List Int → Int
  | [] => 0
  | x :: xs => xs.foldr min x

/-- The largest number of a list. -/
def highestOf : List Int → Int
  | [] => 0
  | x :: xs => xs.foldr max x

theorem lowestOf_le {xs : List Int} {a : Int} (h : a ∈ xs) : lowestOf xs ≤ a := by
  cases xs with
  | nil => cases h
  | cons x xs =>
    have key : ∀ ys : List Int, ys.foldr min x ≤ x ∧ ∀ b ∈ ys, ys.foldr min x ≤ b := by
      intro ys
      induction ys with
      | nil => simp
      | cons y ys ih =>
        simp only [List.foldr_cons, List.mem_cons, forall_eq_or_imp]
        exact ⟨(min_le_right _ _).trans ih.1, min_le_left _ _, fun b hb => (min_le_right _ _).trans (ih.2 b hb)⟩
    rcases List.mem_cons.1 h with rfl | h
    · exact (key xs).1
    · exact (key xs).2 a h

theorem le_highestOf {xs : List Int} {a : Int} (h : a ∈ xs) : a ≤ highestOf xs := by
  cases xs with
  | nil => cases h
  | cons x xs =>
    have key : ∀ ys : List Int, x ≤ ys.foldr max x ∧ ∀ b ∈ ys, b ≤ ys.foldr max x := by
      intro ys
      induction ys with
      | nil => simp
      | cons y ys ih =>
        simp only [List.foldr_cons, List.mem_cons, forall_eq_or_imp]
        exact ⟨ih.1.trans (le_max_right _ _), le_max_left _ _, fun b hb => (ih.2 b hb).trans (le_max_right _ _)⟩
    rcases List.mem_cons.1 h with rfl | h
    · exact (key xs).1
    · exact (key xs).2 a h

/-- A rectangle. -/
def rectContour (x0 y0 x1 y1 : Int) : List IntPoint := [⟨x0, y0⟩, ⟨x1, y0⟩, ⟨x1, y1⟩, ⟨x0, y1⟩]

/-- A rectangle which contains the points, with a margin. -/
def aroundContour (ps : List IntPoint) (k : Int) : List IntPoint :=
  rectContour (lowestOf (ps.map (·.x)) - k) (lowestOf (ps.map (·.y)) - k) (highestOf (ps.map (·.x)) + k) (highestOf (ps.map (·.y)) + k)

/-- All points are left of 50 mm. -/
def leftOf (c : List IntPoint) : Bool := c.all fun p => decide (p.x < 50000)

/-- All points are right of 50 mm. -/
def rightOf (c : List IntPoint) : Bool := c.all fun p => decide (50000 ≤ p.x)

/-- The library of C114, with rectangles as enlarged areas, and with differences for areas left of 50 mm if everything right of it is removed. -/
def sideLib : ClipperLib where
  execute := fun t s c => match t with
    | .difference => some (match s with
      | [a] => if c = [] ∨ (leftOf a ∧ c.all rightOf) then [.node a []] else []
      | [a, b] => if leftOf a ∧ rightOf b ∧ c.all rightOf then [.node a []] else []
      | _ => [])
    | t => soleLib.execute t s c
  executeOpen := soleLib.executeOpen
  offset := fun s d => if d ≤ 0 then soleLib.offset s d else if s = [] then [] else [.node (aroundContour s.flatten (⌈d⌉ + 1)) []]
  hull := id

theorem single_part (c : List IntPoint) : partContours ⟨asPath c, []⟩ = [c] := by
  simp only [partContours, asPath, List.map_cons, List.map_nil, List.map_map]
  exact congrArg (fun l => [l]) (List.map_id' c)

theorem contours_parts (cs : List (List IntPoint)) : (cs.map fun c => (⟨asPath c, []⟩ : LayerPart)).flatMap partContours = cs := by
  induction cs with
  | nil => rfl
  | cons c cs ih => rw [List.map_cons, List.flatMap_cons, single_part, ih]; rfl

theorem touches_halfplane {cs : List (List IntPoint)} {x : ℚ × ℚ} (h : Touches enclosedBy cs x) {u v w : ℚ}
    (hp : ∀ c ∈ cs, ∀ q ∈ c, u * (q.x : ℚ) + v * (q.y : ℚ) ≤ w) : u * x.1 + v * x.2 ≤ w := by
  rw [← contours_parts cs] at h
  obtain ⟨p, hpm, h⟩ := touches_parts h
  obtain ⟨c, hc, rfl⟩ := List.mem_map.1 hpm
  refine touches_half h fun c' hc' q hq => ?_
  simp only [List.mem_cons, List.not_mem_nil, or_false] at hc'
  subst hc'
  obtain ⟨q', hq', rfl⟩ := List.mem_map.1 hq
  exact hp c hc q' hq'

theorem touches_left {c : List IntPoint} (hc : leftOf c = true) {x : ℚ × ℚ} (h : Touches enclosedBy [c] x) : x.1 ≤ 49999 := by
  have := touches_halfplane h (u := 1) (v := 0) (w := 49999) fun c' hc' q hq => by
    rw [List.mem_singleton] at hc'
    subst hc'
    have := of_decide_eq_true (List.all_eq_true.1 hc q hq)
    have : (q.x : ℚ) ≤ 49999 := by exact_mod_cast (by omega : q.x ≤ 49999)
    linarith
  linarith

theorem touches_right {cs : List (List IntPoint)} (hc : cs.all rightOf = true) {x : ℚ × ℚ} (h : Touches enclosedBy cs x) : 50000 ≤ x.1 := by
  have := touches_halfplane h (u := -1) (v := 0) (w := -50000) fun c' hc' q hq => by
    have := of_decide_eq_true (List.all_eq_true.1 (List.all_eq_true.1 hc c' hc') q hq)
    have : (50000 : ℚ) ≤ q.x := by exact_mod_cast this
    linarith
  linarith

theorem inside_around {ps : List IntPoint} {k : Int} {y : ℚ × ℚ} (hx : (lowestOf (ps.map (·.x)) : ℚ) - k < y.1 ∧ y.1 < highestOf (ps.map (·.x)) + k)
    (hy : (lowestOf (ps.map (·.y)) : ℚ) - k < y.2 ∧ y.2 < highestOf (ps.map (·.y)) + k) : y ∈ evenOdd enclosedBy [aroundContour ps k] := by
  rw [← single_part]
  refine (mem_region_ring _ _).2 ?_
  unfold aroundContour rectContour
  generalize lowestOf (ps.map (·.x)) = x0 at *
  generalize highestOf (ps.map (·.x)) = x1 at *
  generalize lowestOf (ps.map (·.y)) = y0 at *
  generalize highestOf (ps.map (·.y)) = y1 at *
  have e1 : ¬ y.2 < (y0 : ℚ) - k := by linarith [hy.1]
  have e2 : y.2 < (y1 : ℚ) + k := hy.2
  have e3 : y.1 < (x1 : ℚ) + k := hx.2
  have e4 : ¬ y.1 < (x0 : ℚ) - k := by linarith [hx.1]
  simp [asPath, ringCross, ringSides, exactPt, cross2, RayCrosses, List.rotate, e1, e2, e3, e4]

theorem side_clear : KeepsClear enclosedBy sideLib 0 where
  removed := by
    intro s c tree h a ha x hx
    simp only [sideLib, Option.some.injEq] at h
    subst h
    have far : ∀ a, leftOf a = true → c.all rightOf = true → Touches enclosedBy [a] x → ∃ y, y ∉ evenOdd enclosedBy c ∧ NearPt 0 x y := by
      intro a h1 h2 h3
      refine ⟨x, fun hin => ?_, NearPt.refl le_rfl x⟩
      have k1 := touches_left h1 h3
      have k2 := touches_right h2 (.inl hin)
      linarith
    split at ha
    · split at ha
      · rename_i hh
        cases isArea_leaf ha
        rcases hh with rfl | hh
        · exact ⟨x, by simp [evenOdd, crossings], NearPt.refl le_rfl x⟩
        · exact far _ hh.1 hh.2 hx
      · exact (isArea_nil ha).elim
    · split at ha
      · rename_i hh
        cases isArea_leaf ha
        exact far _ hh.1 hh.2.2 hx
      · exact (isArea_nil ha).elim
    · exact (isArea_nil ha).elim
  enlarged := by
    intro s d _ hd z hz y hap
    unfold Apart at hap
    rw [not_or, not_le, not_le, sub_zero] at hap
    obtain ⟨hd, hyz⟩ := hap
    have hs : s ≠ [] := by rintro rfl; exact touches_nil hz
    simp only [sideLib, if_neg (not_le.2 hd), if_neg hs, treesContours, treeContours, List.append_nil]
    have kx := abs_lt_of_sq_lt_sq (a := y.1 - z.1) (b := d) (by nlinarith [sq_nonneg (y.2 - z.2)]) hd.le
    have ky := abs_lt_of_sq_lt_sq (a := y.2 - z.2) (b := d) (by nlinarith [sq_nonneg (y.1 - z.1)]) hd.le
    rw [abs_lt] at kx ky
    have hk : d ≤ ((⌈d⌉ : Int) : ℚ) := Int.le_ceil d
    have mem : ∀ c ∈ s, ∀ q ∈ c, q ∈ s.flatten := fun c hc q hq => List.mem_flatten.2 ⟨c, hc, hq⟩
    have b1 := touches_halfplane hz (u := -1) (v := 0) (w := -lowestOf (s.flatten.map (·.x))) fun c hc q hq => by
      have := lowestOf_le (List.mem_map_of_mem (f := (·.x)) (mem c hc q hq))
      have : ((lowestOf (s.flatten.map (·.x)) : Int) : ℚ) ≤ q.x := by exact_mod_cast this
      linarith
    have b2 := touches_halfplane hz (u := 1) (v := 0) (w := highestOf (s.flatten.map (·.x))) fun c hc q hq => by
      have := le_highestOf (List.mem_map_of_mem (f := (·.x)) (mem c hc q hq))
      have : (q.x : ℚ) ≤ ((highestOf (s.flatten.map (·.x)) : Int) : ℚ) := by exact_mod_cast this
      linarith
    have b3 := touches_halfplane hz (u := 0) (v := -1) (w := -lowestOf (s.flatten.map (·.y))) fun c hc q hq => by
      have := lowestOf_le (List.mem_map_of_mem (f := (·.y)) (mem c hc q hq))
      have : ((lowestOf (s.flatten.map (·.y)) : Int) : ℚ) ≤ q.y := by exact_mod_cast this
      linarith
    have b4 := touches_halfplane hz (u := 0) (v := 1) (w := highestOf (s.flatten.map (·.y))) fun c hc q hq => by
      have := le_highestOf (List.mem_map_of_mem (f := (·.y)) (mem c hc q hq))
      have : (q.y : ℚ) ≤ ((highestOf (s.flatten.map (·.y)) : Int) : ℚ) := by exact_mod_cast this
      linarith
    refine inside_around ⟨?_, ?_⟩ ⟨?_, ?_⟩ <;> push_cast <;> linarith

theorem side_nothing : NothingOutside enclosedBy sideLib 0 where
  intersection := sole_nothing.intersection
  union := sole_nothing.union
  cut := sole_nothing.cut
  left := sole_nothing.left
  vertical := sole_nothing.vertical
  inset := by
    intro s d _ hd a ha x hx
    simp only [sideLib, if_pos hd, soleLib] at ha
    split at ha
    · cases isArea_leaf ha
      exact near_self hx
    · exact (isArea_nil ha).elim
  difference := by
    intro s c tree h a ha x hx
    simp only [sideLib, Option.some.injEq] at h
    subst h
    split at ha
    · split at ha
      · cases isArea_leaf ha
        exact near_self hx
      · exact (isArea_nil ha).elim
    · split at ha
      · rename_i a b hh
        cases isArea_leaf ha
        refine near_self ?_
        have k1 := touches_left hh.1 hx
        rcases hx with hx | ⟨c, hc, hx⟩
        · refine .inl ?_
          have hb : x ∉ evenOdd enclosedBy [b] := fun hin => by
            have := touches_right (cs := [b]) (by simpa using hh.2.1) (.inl hin)
            linarith
          have := mem_region_append enclosedBy [⟨asPath a, []⟩] [⟨asPath b, []⟩] x
          simp only [region, List.cons_append, List.nil_append, List.flatMap_cons, List.flatMap_nil, single_part, List.append_nil] at this
          exact this.2 (by tauto)
        · rw [List.mem_singleton] at hc
          exact .inr ⟨c, by simp [hc], hx⟩
      · exact (isArea_nil ha).elim
    · exact (isArea_nil ha).elim

/-- Three layers with a square at the right, and one more with another square at the left. -/
def overhangLayers : List Layer :=
  let b : LayerPart := ⟨[⟨60000, 0⟩, ⟨70000, 0⟩, ⟨70000, 10000⟩, ⟨60000, 10000⟩], []⟩
  [⟨[b], none⟩, ⟨[b], none⟩, ⟨[b], none⟩, ⟨[⟨[⟨0, 0⟩, ⟨10000, 0⟩, ⟨10000, 10000⟩, ⟨0, 10000⟩], []⟩, b], none⟩]

/-- Support with a top gap of one layer. -/
def gapSupport : Options := { print := { support := { enabled := true, topGapLayers := 1, interfaceLayers := 1 } } }

/-- Non-vacuity of `C115_areas`: the first layer gets support, the second one interface. -/
example : ∃ ls l0 l1, (standardModifiers sideLib 1 gapSupport).foldlM (fun ls m => m ls) overhangLayers = .ok ls ∧ ls[0]? = some l0 ∧ ls[1]? = some l1 ∧
    (l0.partsAttribute "support").map List.length = .ok 1 ∧ (l1.partsAttribute "supportInterface").map List.length = .ok 1 ∧ SupportFree enclosedBy sideLib gapSupport 0 l0 ∧
    Separate enclosedBy (biggerLayer sideLib gapSupport l0) := by
  have hv : (((standardModifiers sideLib 1 gapSupport).foldlM (fun ls m => m ls) overhangLayers : Res (List Layer)).map fun ls =>
      (ls[0]?.map fun l => l.partsAttribute "support", ls[1]?.map fun l => l.partsAttribute "supportInterface")).map
        (fun r => (r.1.map fun x => x.map List.length, r.2.map fun x => x.map List.length)) = .ok (some (.ok 1), some (.ok 1)) := by decide +kernel
  cases h : (standardModifiers sideLib 1 gapSupport).foldlM (fun ls m => m ls) overhangLayers with
  | error e => rw [h] at hv; cases hv
  | ok ls =>
    rw [h] at hv
    simp only [Except.map, Except.ok.injEq, Prod.mk.injEq, Option.map_map, Option.map_eq_some_iff] at hv
    obtain ⟨⟨l0, e0, v0⟩, l1, e1, v1⟩ := hv
    refine ⟨ls, l0, l1, rfl, e0, e1, v0, v1, C115_areas side_nothing side_clear le_rfl h (by decide) 0 l0 e0 (.inr (by decide)), ?_⟩
    have hp : l0.parts = [⟨[⟨60000, 0⟩, ⟨70000, 0⟩, ⟨70000, 10000⟩, ⟨60000, 10000⟩], []⟩] := by
      obtain ⟨l, hl, hpp⟩ := final_parts h 0 l0 e0
      cases hl
      exact hpp
    have : (biggerLayer sideLib gapSupport l0).length = 1 := by
      unfold biggerLayer
      rw [hp]
      decide +kernel
    obtain ⟨q, hq⟩ := List.length_eq_one_iff.1 this
    rw [hq]
    exact List.pairwise_singleton _ _

/-- Non-vacuity of `C115_program`: the hypotheses hold for the tetrahedron of C90. -/
example : ∃ t, gcodeOf { cornerExt with lib := sideLib } gapSupport [] = .ok t ∧ NothingOutside enclosedBy sideLib 0 ∧ KeepsClear enclosedBy sideLib 0 ∧ OpenClipping sideLib ∧
    TurnsBack cornerExt.trig ∧ Moderate gapSupport ∧ |toMicrometer gapSupport.print.support.gap| ≤ 2 ^ 53 := by
  have ho : OpenClipping sideLib := ⟨sole_open.ok, sole_open.lines⟩
  have hm : cornerMesh = (cornerExt.stl []).map stlTriangleToFace := by decide +kernel
  obtain ⟨t, ht⟩ := C90_gcode { cornerExt with lib := sideLib } gapSupport [] ⟨by decide, by decide, by decide, by decide, by decide, by decide, by decide, by decide +kernel, by decide⟩ (fun t s c => by cases t <;> rfl) ho cornerMesh hm (by decide) (by decide)
    (by unfold Separated; decide +kernel) corner_noGap (.inr rfl)
  exact ⟨t, ht, side_nothing, side_clear, ho, turns_never, ⟨by decide, by decide, by decide, by decide, by decide +kernel, by decide +kernel⟩, by decide +kernel⟩

end Verif
