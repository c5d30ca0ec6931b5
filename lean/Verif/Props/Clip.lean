import Mathlib.Data.List.Perm.Basic
import Mathlib.Data.List.Basic
import Mathlib.Tactic.Ring
import Mathlib.Tactic.Linarith
import Verif.Spec.Clip
import Verif.Lemmas.Float
import Verif.Model.Renderers

/-! # Properties of the `clip` package (C38–C42) -/
namespace Verif
open Verif.Go Verif.Model Verif.Spec

/-! ## C38: layer parts of a tree -/

theorem asPath_eq (c : List IntPoint) : asPath c = c.map microPoint := rfl

mutual
/-- The parts of a tree in depth first order. -/
def treeParts : PolyNode → List LayerPart
  | .node c cs => nodePart (.node c cs) :: grandParts cs
/-- The parts of the grandchildren, for a list of children. -/
def grandParts : List PolyNode → List LayerPart
  | [] => []
  | .node _ cs :: rest => treePartsList cs ++ grandParts rest
/-- The parts of a list of trees. -/
def treePartsList : List PolyNode → List LayerPart
  | [] => []
  | c :: cs => treeParts c ++ treePartsList cs
end

theorem treePartsList_eq (l : List PolyNode) : treePartsList l = l.flatMap treeParts := by
  induction l with
  | nil => simp [treePartsList]
  | cons c cs ih => simp [treePartsList, ih]

theorem grandParts_eq (l : List PolyNode) : grandParts l = (l.flatMap PolyNode.childs).flatMap treeParts := by
  induction l with
  | nil => simp [grandParts]
  | cons c cs ih => cases c; simp [grandParts, ih, PolyNode.childs, treePartsList_eq]

theorem treeParts_eq (p : PolyNode) : treeParts p = nodePart p :: (p.childs.flatMap PolyNode.childs).flatMap treeParts := by
  cases p
  simp only [treeParts, grandParts_eq, PolyNode.childs]

theorem flatMap_treeParts (l : List PolyNode) :
    List.Perm (l.flatMap treeParts) (l.map nodePart ++ (nextRound l).flatMap treeParts) := by
  induction l with
  | nil => simp [nextRound]
  | cons p ps ih =>
    simp only [List.flatMap_cons, nextRound, List.map_cons, List.flatMap_append, List.cons_append] at ih ⊢
    rw [treeParts_eq p]
    simp only [List.cons_append]
    refine List.Perm.cons _ ?_
    refine (List.Perm.append_left _ ih).trans ?_
    rw [← List.append_assoc, ← List.append_assoc]
    exact List.Perm.append_right _ List.perm_append_comm

theorem polyRounds_perm (n : Nat) (l : List PolyNode) (hn : PolyNode.sizes l ≤ n) (acc : List LayerPart) :
    List.Perm (polyRounds l acc) (acc ++ l.flatMap treeParts) := by
  induction n generalizing l acc with
  | zero =>
    have hl : l = [] := by
      cases l with
      | nil => rfl
      | cons a t => have := PolyNode.size_pos a; simp only [PolyNode.sizes] at hn; omega
    subst hl; unfold polyRounds; simp
  | succ n ih =>
    unfold polyRounds
    by_cases h : l = []
    · simp [h]
    · rw [dif_neg h]
      refine (ih _ (by have := nextRound_lt l h; omega) _).trans ?_
      rw [List.append_assoc]
      exact List.Perm.append_left _ (flatMap_treeParts l).symm

theorem polyTree_perm (l : List PolyNode) : List.Perm (polyTreeToLayerParts l) (l.flatMap treeParts) := by
  simpa [polyTreeToLayerParts] using polyRounds_perm _ l le_rfl []

mutual
theorem outlines_treeParts : (p : PolyNode) → List.Perm ((treeParts p).map LayerPart.outline) (contours true p)
  | .node c cs => by
    simp only [treeParts, List.map_cons, contours, if_true, List.cons_append, List.nil_append, Bool.not_true]
    exact List.Perm.cons _ (outlines_grandParts cs)
theorem outlines_grandParts : (l : List PolyNode) → List.Perm ((grandParts l).map LayerPart.outline) (contoursList false l)
  | [] => by simp [grandParts, contoursList]
  | .node c cs :: rest => by
    simp only [grandParts, List.map_append, contoursList, contours, Bool.false_eq_true, if_false, List.nil_append, Bool.not_false]
    exact List.Perm.append (outlines_treePartsList cs) (outlines_grandParts rest)
theorem outlines_treePartsList : (l : List PolyNode) → List.Perm ((treePartsList l).map LayerPart.outline) (contoursList true l)
  | [] => by simp [treePartsList, contoursList]
  | c :: cs => by
    simp only [treePartsList, List.map_append, contoursList]
    exact List.Perm.append (outlines_treeParts c) (outlines_treePartsList cs)
end

mutual
theorem holes_treeParts : (p : PolyNode) → List.Perm ((treeParts p).flatMap LayerPart.holes) (contours false p)
  | .node c cs => by
    simp only [treeParts, List.flatMap_cons, contours, Bool.false_eq_true, if_false, List.nil_append, Bool.not_false]
    exact holes_grandParts cs
/-- The holes of a node with the children `l`, and those below. -/
theorem holes_grandParts : (l : List PolyNode) →
    List.Perm (l.map (fun child => child.contour.map microPoint) ++ (grandParts l).flatMap LayerPart.holes) (contoursList true l)
  | [] => by simp [grandParts, contoursList]
  | .node c cs :: rest => by
    simp only [grandParts, List.flatMap_append, List.map_cons, contoursList, contours, if_true, Bool.not_true, List.cons_append,
      List.nil_append]
    refine List.Perm.cons _ ?_
    rw [← List.append_assoc]
    refine (List.Perm.append_right _ List.perm_append_comm).trans ?_
    rw [List.append_assoc]
    exact List.Perm.append (holes_treePartsList cs) (holes_grandParts rest)
theorem holes_treePartsList : (l : List PolyNode) → List.Perm ((treePartsList l).flatMap LayerPart.holes) (contoursList false l)
  | [] => by simp [treePartsList, contoursList]
  | c :: cs => by
    simp only [treePartsList, List.flatMap_append, contoursList]
    exact List.Perm.append (holes_treeParts c) (holes_treePartsList cs)
end

/-- C38: the outlines of the parts are the contours at even depth of the tree (children of the root have depth 0), each once. -/
theorem C38_outlines (childs : List PolyNode) :
    List.Perm ((polyTreeToLayerParts childs).map LayerPart.outline) (contoursList true childs) :=
  ((polyTree_perm childs).map _).trans (by rw [← treePartsList_eq]; exact outlines_treePartsList childs)

/-- C38: the holes of the parts are the contours at odd depth of the tree, each once. -/
theorem C38_holes (childs : List PolyNode) :
    List.Perm ((polyTreeToLayerParts childs).flatMap LayerPart.holes) (contoursList false childs) :=
  ((polyTree_perm childs).flatMap_right _).trans (by rw [← treePartsList_eq]; exact holes_treePartsList childs)

theorem mem_treeParts_node {root : PolyNode} (n : Nat) (hn : root.size ≤ n) {part : LayerPart} (h : part ∈ treeParts root) :
    ∃ node, EvenBelow root node ∧ part = nodePart node := by
  induction n generalizing root with
  | zero => have := PolyNode.size_pos root; omega
  | succ n ih =>
    rw [treeParts_eq] at h
    rcases List.mem_cons.1 h with h | h
    · exact ⟨root, .refl _, h⟩
    · obtain ⟨g, hg, hp⟩ := List.mem_flatMap.1 h
      obtain ⟨c, hc, hgc⟩ := List.mem_flatMap.1 hg
      have lt_of_mem : ∀ {l : List PolyNode} {x : PolyNode}, x ∈ l → x.size ≤ PolyNode.sizes l := by
        intro l x hx
        induction l with
        | nil => cases hx
        | cons a t iht =>
          simp only [PolyNode.sizes]
          rcases List.mem_cons.1 hx with rfl | hx
          · omega
          · have := iht hx; omega
      have h1 := lt_of_mem hc
      have h2 := lt_of_mem hgc
      have h3 := PolyNode.size_eq root
      have h4 := PolyNode.size_eq c
      obtain ⟨node, hnode, rfl⟩ := ih (root := g) (by omega) hp
      refine ⟨node, ?_, rfl⟩
      have trans : ∀ {m : PolyNode}, EvenBelow g m → EvenBelow root m := by
        intro m hm
        induction hm with
        | refl => exact .step (.refl _) hc hgc
        | step _ hc' hg' ih' => exact .step ih' hc' hg'
      exact trans hnode

/-- C38: the outline and the holes of every part belong together in the tree: the holes are the contours of the direct children of the
node with the outline, in order. -/
theorem C38_parent (childs : List PolyNode) (part : LayerPart) (h : part ∈ polyTreeToLayerParts childs) :
    ∃ root ∈ childs, ∃ node, EvenBelow root node ∧ part.outline = asPath node.contour ∧
      part.holes = node.childs.map fun c => asPath c.contour := by
  have h' := (polyTree_perm childs).mem_iff.1 h
  obtain ⟨root, hr, hp⟩ := List.mem_flatMap.1 h'
  obtain ⟨node, hn, rfl⟩ := mem_treeParts_node _ le_rfl hp
  exact ⟨root, hr, node, hn, rfl, rfl⟩

/-- A square with a hole with an island. -/
def islandTree : List PolyNode :=
  [.node [⟨0, 0⟩, ⟨9, 0⟩, ⟨9, 9⟩] [.node [⟨2, 1⟩, ⟨8, 1⟩, ⟨8, 7⟩] [.node [⟨4, 2⟩, ⟨7, 2⟩, ⟨7, 5⟩] []]]]

example : (contoursList true islandTree).length = 2 ∧ (contoursList false islandTree).length = 1 := by decide +kernel

example : (polyTreeToLayerParts islandTree).length = 2 := by
  simpa using (C38_outlines islandTree).length_eq.trans (by decide +kernel)

/-! ## C39: inset distances -/

theorem insetLoop_length (lib : ClipperLib) (part : LayerPart) (offset : Int) (n : Nat) (c : ℚ) :
    (lib.insetLoop part offset n c).length = n := by
  induction n generalizing c with
  | zero => rfl
  | succ n ih => simp [ClipperLib.insetLoop, ih]

/-- C39: as many insets as requested (none for a negative count). -/
theorem C39_count (lib : ClipperLib) (part : LayerPart) (offset : Int) (count : Int) (initial : Int) :
    (lib.inset part offset count initial).length = count.toNat := insetLoop_length _ _ _ _ _

theorem insetLoop_get (lib : ClipperLib) (part : LayerPart) (offset : Int) (n : Nat) (c : Int)
    (h : |c| + n * |offset| ≤ 2 ^ 53) (k : Nat) (hk : k < n) :
    (lib.insetLoop part offset n (c : ℚ))[k]? = some (lib.inset1 part ((c - k * offset : Int) : ℚ)) := by
  induction n generalizing c k with
  | zero => omega
  | succ n ih =>
    have hn : 0 ≤ (n : Int) * |offset| := by positivity
    have h0 := abs_nonneg offset
    have hc := abs_nonneg c
    push_cast at h
    cases k with
    | zero => simp [ClipperLib.insetLoop]
    | succ k =>
      simp only [ClipperLib.insetLoop, List.getElem?_cons_succ]
      have e1 : r64 ((-offset : Int) : ℚ) = ((-offset : Int) : ℚ) := r64_intCast (by rw [abs_neg]; linarith)
      have e2 : (c : ℚ) + ((-offset : Int) : ℚ) = ((c - offset : Int) : ℚ) := by push_cast; ring
      have habs : |c - offset| ≤ |c| + |offset| := abs_sub _ _
      have e3 : r64 ((c - offset : Int) : ℚ) = ((c - offset : Int) : ℚ) := r64_intCast (by linarith)
      rw [e1, e2, e3, ih (c - offset) (by linarith) k (by omega)]
      congr 2
      push_cast
      ring

/-- C39: the inset number `k` is the offset of the original outline and holes by `initial - k * offset` exactly, as long as the distances
stay below 2^53 micrometres. -/
theorem C39_distance (lib : ClipperLib) (part : LayerPart) (offset count initial : Int)
    (h : |initial| + count * |offset| ≤ 2 ^ 53) (k : Nat) (hk : (k : Int) < count) :
    (lib.inset part offset count initial)[k]? =
      some (polyTreeToLayerParts (lib.offset
        ((part.outline :: part.holes).map fun path => path.map fun p => (⟨p.x, p.y⟩ : IntPoint))
        ((initial - k * offset : Int) : ℚ))) := by
  have hcount : ((count.toNat : Nat) : Int) = count := Int.toNat_of_nonneg (by omega)
  have hin : |initial| ≤ 2 ^ 53 := by
    have : 0 ≤ count * |offset| := mul_nonneg (by omega) (abs_nonneg _)
    linarith
  rw [ClipperLib.inset, r64_intCast hin, insetLoop_get lib part offset count.toNat initial (by rw [hcount]; exact h) k (by omega)]
  simp [ClipperLib.inset1, clipperPaths, clipperPath]
  rfl

/-- C39: every part of a layer is inset on its own, in order. -/
theorem C39_layer (lib : ClipperLib) (layer : List LayerPart) (offset count initial : Int) :
    (lib.insetLayer layer offset count initial).length = layer.length ∧
    ∀ (k : Nat) (part : LayerPart), layer[k]? = some part →
      (lib.insetLayer layer offset count initial)[k]? = some (lib.inset part offset count initial) := by
  refine ⟨by simp [ClipperLib.insetLayer], fun k part h => by simp [ClipperLib.insetLayer, h]⟩

/-- C39: the perimeters lie at half a line width plus whole line widths inside the outline (the library's offsets are negative). For
an even width `w` these are `-(w/2) - k*w`. -/
theorem C39_perimeters (lib : ClipperLib) (part : LayerPart) (width count : Int) (hw : 0 < width) (hw' : width < 2 ^ 31)
    (hc : count < 2 ^ 20) (k : Nat) (hk : (k : Int) < count) :
    (lib.inset part width count ((-width).tdiv 2))[k]? =
      some (lib.inset1 part ((-(width / 2) - k * width : Int) : ℚ)) := by
  have e : (-width).tdiv 2 = -(width / 2) := by
    rw [Int.neg_tdiv, Int.tdiv_eq_ediv_of_nonneg (by omega)]
  have hcount : ((count.toNat : Nat) : Int) = count := Int.toNat_of_nonneg (by omega)
  have hb : |(-width).tdiv 2| + count * |width| ≤ 2 ^ 53 := by
    rw [e, abs_neg, abs_of_nonneg (by omega : 0 ≤ width / 2), abs_of_pos hw]
    have : count * width ≤ 2 ^ 20 * 2 ^ 31 := by
      apply mul_le_mul (by omega) (by omega) (by omega) (by norm_num)
    have h2 : width / 2 ≤ 2 ^ 31 := by omega
    norm_num at this h2 ⊢
    linarith
  have hin : |(-width).tdiv 2| ≤ 2 ^ 53 := by
    have : 0 ≤ count * |width| := mul_nonneg (by omega) (abs_nonneg _)
    linarith
  rw [ClipperLib.inset, r64_intCast hin, insetLoop_get lib part width count.toNat _ (by rw [hcount]; exact hb) k (by omega), e]

/-- A library which reports its offset in a contour. -/
def echoClipper : ClipperLib where
  execute := fun _ _ _ => some []
  executeOpen := fun _ _ _ => some []
  offset := fun _ d => [.node [⟨d.num, d.den⟩] []]
  hull := id

example : (echoClipper.inset ⟨[], []⟩ 400 2 (-200))[1]? = some [⟨[⟨-600, 1⟩], []⟩] := by
  rw [C39_distance _ _ _ _ _ (by norm_num) 1 (by norm_num)]
  have : polyTreeToLayerParts [.node [⟨-600, 1⟩] []] = [⟨[⟨-600, 1⟩], []⟩] := by
    unfold polyTreeToLayerParts polyRounds polyRounds
    simp [nextRound, nodePart, nodeHoles, PolyNode.childs, PolyNode.contour, microPoint]
  simpa [echoClipper] using this

/-! ## C40: iteration -/

theorem foldl_append {α β : Type} (f : β → List α) (l : List β) (acc : List α) :
    l.foldl (fun a b => a ++ f b) acc = acc ++ l.flatMap f := by
  induction l generalizing acc with
  | nil => simp
  | cons b bs ih => simp [ih]

/-- C40: `ToOneDimension` lists all parts in order. -/
theorem C40_toOneDimension (r : OffsetResult) : toOneDimension r = r.flatten.flatten := by
  unfold toOneDimension
  have : ∀ (acc : List LayerPart) (part : List (List LayerPart)),
      part.foldl (fun result inset => result ++ inset) acc = acc ++ part.flatten := by
    intro acc part
    have := foldl_append (fun x : List LayerPart => x) part acc
    simpa [List.flatMap_id'] using this
  simp only [this]
  rw [foldl_append, List.nil_append]
  induction r with
  | nil => rfl
  | cons a t ih => rw [List.flatMap_cons, ih, List.flatten_cons, List.flatten_append]

section
variable {σ : Type} (cb : σ → LayerPart → Nat → Nat → Nat → σ × Bool)

/-- The callback for an element with its indices. -/
def visit (s : σ) (v : LayerPart × Nat × Nat × Nat) : σ × Bool := cb s v.1 v.2.1 v.2.2.1 v.2.2.2

/-- `untilTrue` with the information whether it stopped. -/
def untilTrueB {β : Type} (cb : σ → β → σ × Bool) : σ → List β → σ × Bool
  | s, [] => (s, false)
  | s, b :: bs => if (cb s b).2 then ((cb s b).1, true) else untilTrueB cb (cb s b).1 bs

theorem untilTrueB_fst {β : Type} (cb : σ → β → σ × Bool) (s : σ) (l : List β) : (untilTrueB cb s l).1 = untilTrue cb s l := by
  induction l generalizing s with
  | nil => rfl
  | cons b bs ih =>
    simp only [untilTrueB, untilTrue]
    split <;> simp [ih]

theorem untilTrueB_append {β : Type} (cb : σ → β → σ × Bool) (s : σ) (l m : List β) :
    untilTrueB cb s (l ++ m) = if (untilTrueB cb s l).2 then untilTrueB cb s l else untilTrueB cb (untilTrueB cb s l).1 m := by
  induction l generalizing s with
  | nil => simp [untilTrueB]
  | cons b bs ih =>
    simp only [List.cons_append, untilTrueB]
    split
    · simp
    · exact ih _

theorem forEachPart_eq (i j k : Nat) (s : σ) (l : List LayerPart) :
    forEachPart cb i j s k l = untilTrueB (visit cb) s ((l.zipIdx k).map fun x => (x.1, i, j, x.2)) := by
  induction l generalizing s k with
  | nil => rfl
  | cons p ps ih =>
    simp only [forEachPart, List.zipIdx_cons, List.map_cons, untilTrueB, ih]
    rfl

theorem forEachInset_eq (i j : Nat) (s : σ) (l : List (List LayerPart)) :
    forEachInset cb i s j l = untilTrueB (visit cb) s
      ((l.zipIdx j).flatMap fun x => x.1.zipIdx.map fun y => (y.1, i, x.2, y.2)) := by
  induction l generalizing s j with
  | nil => rfl
  | cons p ps ih =>
    simp only [forEachInset, List.zipIdx_cons, List.flatMap_cons, untilTrueB_append, forEachPart_eq]
    split
    · rename_i h; rw [← h]
    · exact ih _ _

theorem forEachOuter_eq (i : Nat) (s : σ) (l : OffsetResult) :
    forEachOuter cb s i l = untilTrueB (visit cb) s
      ((l.zipIdx i).flatMap fun w => w.1.zipIdx.flatMap fun x => x.1.zipIdx.map fun y => (y.1, w.2, x.2, y.2)) := by
  induction l generalizing s i with
  | nil => rfl
  | cons p ps ih =>
    simp only [forEachOuter, List.zipIdx_cons, List.flatMap_cons, untilTrueB_append, forEachInset_eq]
    split
    · rename_i h; rw [← h]
    · exact ih _ _

/-- C40: `ForEach` calls the callback for the elements in order, with their indices, and stops directly after the first call which answers
`true`. -/
theorem C40_forEach (r : OffsetResult) (s : σ) :
    forEach cb r s = untilTrue (fun s (v : LayerPart × Nat × Nat × Nat) => cb s v.1 v.2.1 v.2.2.1 v.2.2.2) s (visits r) := by
  unfold forEach
  rw [forEachOuter_eq, untilTrueB_fst]
  rfl
end

/-- C40: the visited elements are those of `ToOneDimension` in the same order, and each has its own indices. -/
theorem C40_visits (r : OffsetResult) :
    (visits r).map (fun v => v.1) = toOneDimension r ∧
    ∀ v ∈ visits r, (((r[v.2.1]?).bind fun part => part[v.2.2.1]?).bind fun inset => inset[v.2.2.2]?) = some v.1 := by
  constructor
  · rw [C40_toOneDimension]
    have h1 : ∀ (inset : List LayerPart) (i j : Nat), ((inset.zipIdx.map fun (y : LayerPart × Nat) => (y.1, i, j, y.2)).map fun v => v.1) = inset := by
      intro inset i j; simp [Function.comp_def]
    unfold visits
    simp only [List.map_flatMap]
    have h2 : ∀ (part : List (List LayerPart)) (i n : Nat),
        ((part.zipIdx n).flatMap fun x => ((x.1.zipIdx.map fun y => (y.1, i, x.2, y.2)).map fun v => v.1)) = part.flatten := by
      intro part i n
      induction part generalizing n with
      | nil => rfl
      | cons a t ih =>
        simp only [List.zipIdx_cons, List.flatMap_cons, List.flatten_cons, h1]
        rw [← ih (n + 1)]
        simp only [h1]
    have h3 : ∀ (n : Nat), ((r.zipIdx n).flatMap fun w => w.1.zipIdx.flatMap fun x =>
        ((x.1.zipIdx.map fun y => (y.1, w.2, x.2, y.2)).map fun v => v.1)) = r.flatten.flatten := by
      intro n
      induction r generalizing n with
      | nil => rfl
      | cons a t ih =>
        simp only [List.zipIdx_cons, List.flatMap_cons, List.flatten_cons, List.flatten_append]
        rw [← ih (n + 1), h2 a n 0]
    exact h3 0
  · intro v hv
    obtain ⟨w, hw, hv⟩ := List.mem_flatMap.1 hv
    obtain ⟨x, hx, hv⟩ := List.mem_flatMap.1 hv
    obtain ⟨y, hy, rfl⟩ := List.mem_map.1 hv
    have hw' := List.mem_zipIdx_iff_getElem?.1 hw
    have hx' := List.mem_zipIdx_iff_getElem?.1 hx
    have hy' := List.mem_zipIdx_iff_getElem?.1 hy
    simp [hw', hx', hy']

example : visits [[[1], [2, 3]], [], [[4]]] = [(1, 0, 0, 0), (2, 0, 1, 0), (3, 0, 1, 1), (4, 2, 0, 0)] := by decide +kernel

example : forEach (fun (s : Nat) _ _ j _ => (s + 1, j == 1)) [[[⟨[], []⟩], [⟨[], []⟩, ⟨[], []⟩]]] 0 = 2 := by decide +kernel

/-! ## C41: conversions -/

theorem micro_clipper (p : Path) : (clipperPath p).map microPoint = p := by
  simp [clipperPath, Function.comp_def, clipperPoint, microPoint]

/-- C41: a path converted for the library and back is the same path. -/
theorem C41_path (p : Path) : microPath (clipperPath p) false = .ok p := by
  simp [microPath, micro_clipper]

theorem microPaths_false (p : List (List IntPoint)) : microPaths p false = .ok (p.map asPath) := by
  unfold microPaths
  induction p with
  | nil => rfl
  | cons a t ih =>
    rw [List.mapM_cons, ih]
    rfl

/-- C41: the same for lists of paths. -/
theorem C41_paths (p : Paths) : microPaths (clipperPaths p) false = .ok p := by
  rw [microPaths_false]
  simp only [clipperPaths, List.map_map]
  congr 1
  have : (asPath ∘ clipperPath) = id := by
    funext q
    exact micro_clipper q
  rw [this, List.map_id]

/-- C41: the other direction: a contour of the library converted to a path and back is the same contour. -/
theorem C41_contour (c : List IntPoint) : clipperPath (asPath c) = c := by
  simp [clipperPath, asPath, Function.comp_def, clipperPoint]

example : microPath (clipperPath [⟨1, -2⟩, ⟨3, 4⟩]) false = .ok [⟨1, -2⟩, ⟨3, 4⟩] := C41_path _

end Verif
