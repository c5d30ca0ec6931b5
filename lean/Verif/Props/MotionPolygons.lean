import Verif.Props.Motion

/-! # C136: movements of the model move the sliced polygons -/
namespace Verif
open Verif.Go Verif.Model Verif.Spec

section
variable (m : Motion)

/-! ## Polygons -/

theorem Spec.Motion.nextSegment (meld : Micrometer) (l : SliceLayer) (added : List Nat) (start : Nat) (p : Pt) (ts : List Int) : ∀ r : Option Nat × Bool,
    Model.nextSegment meld (m.slices l) added start (m.pt p) ts r = Model.nextSegment meld l added start p ts r := by
  induction ts with
  | nil => intro r; rfl
  | cons t ts ih =>
    intro r
    unfold Model.nextSegment
    have e : (m.slices l).faceToSegmentIndex = l.faceToSegmentIndex := rfl
    rw [e]
    split
    · exact ih r
    · next ti _ =>
      have hi : index (m.slices l).segments (ti : Int) = (index l.segments (ti : Int)).map m.segment := res_index _ _ _
      rw [hi]
      cases index l.segments (ti : Int) with
      | error e => rfl
      | ok seg =>
        have : (m.segment seg).start = m.pt seg.start := rfl
        simp only [Except.map, bind, Except.bind, this, m.shorter, ih]

theorem Spec.Motion.walk (meld : Micrometer) (om : OptModel) (l : SliceLayer) (start : Nat) : ∀ (n : Nat) (added : List Nat) (polygon : Path) (current : Nat),
    Model.walk meld (m.model om) (m.slices l) start n added (m.path polygon) current =
      (Model.walk meld om l start n added polygon current).map fun r => (r.1, m.path r.2.1, r.2.2) := by
  intro n
  induction n with
  | zero => intro added polygon current; rfl
  | succ n ih =>
    intro added polygon current
    unfold Model.walk
    refine res_bind m.segment (res_index _ _ _) _ fun seg _ => ?_
    have e1 : (m.model om).faces = om.faces := rfl
    have e2 : (m.segment seg).faceIndex = seg.faceIndex := rfl
    have e3 : (m.segment seg).finish = m.pt seg.finish := rfl
    have e4 : m.path polygon ++ [m.pt seg.finish] = m.path (polygon ++ [seg.finish]) := by simp [Motion.path]
    rw [e1, e2, e3, e4]
    refine res_same _ fun face _ => ?_
    rw [m.nextSegment]
    refine res_same _ fun r _ => ?_
    cases r.1 with
    | none => rfl
    | some next => exact ih _ _ _

/-- A moved polygon. -/
def Spec.Motion.poly (p : Poly) : Poly := ⟨p.path.map m.path, p.closed⟩

theorem Spec.Motion.buildPolygons (meld : Micrometer) (om : OptModel) (l : SliceLayer) (is : List Nat) : ∀ (added : List Nat) (polys : List Poly),
    Model.buildPolygons meld (m.model om) (m.slices l) is added (polys.map m.poly) = (Model.buildPolygons meld om l is added polys).map (List.map m.poly) := by
  induction is with
  | nil => intro added polys; rfl
  | cons i is ih =>
    intro added polys
    unfold Model.buildPolygons
    split
    · exact ih _ _
    · refine res_bind m.segment (res_index _ _ _) _ fun seg _ => ?_
      have e : [(m.segment seg).start] = m.path [seg.start] := rfl
      have e' : (m.slices l).segments.length = l.segments.length := List.length_map _
      rw [e, e']
      refine res_bind _ (m.walk meld om l i _ added [seg.start] i) _ fun r _ => ?_
      have := ih r.1 (polys ++ [⟨some r.2.1, r.2.2⟩])
      rw [List.map_append] at this
      exact this

theorem Spec.Motion.bestPartner (join : Micrometer) (i : Nat) (last : Pt) (ps : List Poly) : ∀ (j : Nat) (best : Option Nat × Micrometer),
    Model.bestPartner join i (m.pt last) (ps.map m.poly) j best = Model.bestPartner join i last ps j best := by
  induction ps with
  | nil => intro j best; rfl
  | cons p ps ih =>
    intro j best
    obtain ⟨path, closed⟩ := p
    cases path with
    | none =>
      have e : m.poly ⟨none, closed⟩ = ⟨none, closed⟩ := rfl
      rw [List.map_cons, e, Model.bestPartner, Model.bestPartner, ih]
    | some polygon =>
      have e : m.poly ⟨some polygon, closed⟩ = ⟨some (m.path polygon), closed⟩ := rfl
      have hi : index (m.path polygon) 0 = (index polygon 0).map m.pt := res_index _ _ _
      have hl : (m.path polygon).length = polygon.length := List.length_map _
      rw [List.map_cons, e, Model.bestPartner, Model.bestPartner, hi, hl, ih]
      cases index polygon 0 with
      | error e => simp only [Except.map, bind, Except.bind]
      | ok first =>
        simp only [Except.map, bind, Except.bind]
        rw [m.shorter, m.size, ih]

theorem Spec.Motion.isAlmostFinished (p : Path) (d : Micrometer) : Model.isAlmostFinished (m.path p) d = Model.isAlmostFinished p d := by
  unfold Model.isAlmostFinished
  have h0 : index (m.path p) 0 = (index p 0).map m.pt := res_index _ _ _
  have hl : (m.path p).length = p.length := List.length_map _
  have hn : index (m.path p) ((p.length : Int) - 1) = (index p ((p.length : Int) - 1)).map m.pt := res_index _ _ _
  rw [h0, hl, hn]
  cases index p 0 with
  | error e => rfl
  | ok first =>
    cases index p ((p.length : Int) - 1) with
    | error e => rfl
    | ok last => simp only [Except.map, bind, Except.bind, m.shorter]

theorem Spec.Motion.removeLastPoint (p : Path) : Model.removeLastPoint (m.path p) = m.path (Model.removeLastPoint p) := by
  simp [Model.removeLastPoint, Motion.path]

theorem Spec.Motion.joinPolygons (join : Micrometer) (polys : List Poly) (i : Nat) (polygon : Path) (best : Nat) :
    Model.joinPolygons join (polys.map m.poly) i (m.path polygon) best = (Model.joinPolygons join polys i polygon best).map (List.map m.poly) := by
  unfold Model.joinPolygons
  refine res_bind m.poly (res_index _ _ _) _ fun other _ => ?_
  have e : m.path polygon ++ (m.poly other).path.getD [] = m.path (polygon ++ other.path.getD []) := by
    simp only [Motion.poly, Motion.path]
    cases other.path with
    | none => simp
    | some q => simp [Motion.path]
  simp only [e, m.isAlmostFinished, m.removeLastPoint]
  refine res_same _ fun finished _ => ?_
  simp only [pure, Except.pure, Except.map, Except.ok.injEq, List.map_set]
  congr 1
  congr 1
  split <;> rfl

theorem Spec.Motion.joinPass (join : Micrometer) (polys : List Poly) (ps : List Poly) : ∀ i : Nat,
    Model.joinPass join (polys.map m.poly) (ps.map m.poly) i = (Model.joinPass join polys ps i).map (Option.map (List.map m.poly)) := by
  induction ps with
  | nil => intro i; rfl
  | cons p ps ih =>
    intro i
    obtain ⟨path, closed⟩ := p
    cases path with
    | none => exact ih _
    | some polygon =>
      rw [List.map_cons]
      show Model.joinPass join (polys.map m.poly) (⟨some (m.path polygon), closed⟩ :: ps.map m.poly) i = _
      unfold Model.joinPass
      split
      · exact ih _
      · have hl : (m.path polygon).length = polygon.length := List.length_map _
        rw [hl]
        refine res_bind m.pt (res_index _ _ _) _ fun last _ => ?_
        rw [m.bestPartner]
        refine res_same _ fun best _ => ?_
        cases best.1 with
        | none => exact ih _
        | some b => exact res_bind _ (m.joinPolygons join polys i polygon b) _ fun _ _ => rfl

theorem Spec.Motion.joinAll (join : Micrometer) : ∀ (n : Nat) (polys : List Poly),
    Model.joinAll join n (polys.map m.poly) = (Model.joinAll join n polys).map (List.map m.poly) := by
  intro n
  induction n with
  | zero => intro polys; rfl
  | succ n ih =>
    intro polys
    unfold Model.joinAll
    refine res_bind _ (m.joinPass join polys polys 0) _ fun r _ => ?_
    cases r with
    | none => rfl
    | some polys' => exact ih polys'

theorem Spec.Motion.polygonLength (closed : Bool) (finish : Micrometer) (ps : Path) : ∀ (prev : Pt) (length : Micrometer),
    Model.polygonLength closed finish (m.pt prev) (m.path ps) length = Model.polygonLength closed finish prev ps length := by
  induction ps with
  | nil => intro prev length; rfl
  | cons p ps ih =>
    intro prev length
    show Model.polygonLength closed finish (m.pt prev) (m.pt p :: m.path ps) length = _
    unfold Model.polygonLength
    rw [m.size]
    dsimp only
    rw [ih]

theorem Spec.Motion.clearPolygons (finish : Micrometer) (ps : List Poly) :
    Model.clearPolygons finish (ps.map m.poly) = (Model.clearPolygons finish ps).map (List.map m.path) := by
  induction ps with
  | nil => rfl
  | cons p ps ih =>
    obtain ⟨path, closed⟩ := p
    cases path with
    | none => exact ih
    | some poly =>
      rw [List.map_cons]
      show Model.clearPolygons finish (⟨some (m.path poly), closed⟩ :: ps.map m.poly) = _
      unfold Model.clearPolygons
      rw [m.isAlmostFinished]
      refine res_same _ fun almost ha => ?_
      clear ha
      refine res_bind _ ih _ fun cleared hc => ?_
      clear hc
      have hl : (if (match m.path poly with
            | [] => 0
            | p :: rest => Model.polygonLength (closed || almost) finish p rest 0) > finish ∧ (closed || almost) = true then
          (if almost then Model.removeLastPoint (m.path poly) else m.path poly) :: List.map m.path cleared else List.map m.path cleared) =
          List.map m.path (if (match poly with
            | [] => 0
            | p :: rest => Model.polygonLength (closed || almost) finish p rest 0) > finish ∧ (closed || almost) = true then
          (if almost then Model.removeLastPoint poly else poly) :: cleared else cleared) := by
        cases poly with
        | nil =>
          simp only [Motion.path, List.map_nil]
          split
          · split <;> rfl
          · rfl
        | cons p rest =>
          have e : Model.polygonLength (closed || almost) finish (m.pt p) (m.path rest) 0 = Model.polygonLength (closed || almost) finish p rest 0 :=
            m.polygonLength _ finish rest p 0
          rw [m.removeLastPoint]
          show (if Model.polygonLength (closed || almost) finish (m.pt p) (m.path rest) 0 > finish ∧ (closed || almost) = true then _ else _) = _
          rw [e]
          dsimp only
          split
          · split <;> rfl
          · rfl
      exact congrArg Except.ok hl

/-- **C136** The sliced polygons of a layer of a moved model are the moved polygons. -/
theorem Spec.Motion.makePolygons (o : Options) (om : OptModel) (l : SliceLayer) :
    Model.makePolygons o (m.model om) (m.slices l) = (Model.makePolygons o om l).map (List.map m.path) := by
  unfold Model.makePolygons
  have e' : (m.slices l).segments.length = l.segments.length := List.length_map _
  rw [e']
  refine res_bind (List.map m.poly) (m.buildPolygons _ om l _ [] []) _ fun polys _ => ?_
  rw [List.length_map]
  exact res_bind _ (m.joinAll _ _ polys) _ fun polys' _ => m.clearPolygons _ polys'

end
end Verif
