import Verif.Model.MachineProcess
import Verif.Props.MachineBuilder
import Verif.Props.PrintAreaWhole

/-! # The whole program with int64 arithmetic (C127) -/
namespace Verif
open Verif.Go Verif.Model Verif.Spec Verif.Spec.GCode

/-- The options of the program are not too large. -/
structure PrintFits (tan : ℚ) (o : Options) : Prop where
  options : OptionsFit tan o
  moderate : Moderate o
  slicing : SliceFits o
  percent : 0 ≤ o.print.infillPercent ∧ o.print.infillPercent ≤ 100
  layerSpeed : |truncZ o.print.layerSpeed| ≤ 2 ^ 50
  outerSpeed : |truncZ o.print.outerPerimeterSpeed| ≤ 2 ^ 50
  initialSpeed : |truncZ o.print.initialLayerSpeed| ≤ 2 ^ 50
  moveSpeed : |truncZ o.print.moveSpeed| ≤ 2 ^ 50
  retractionSpeed : |truncZ o.filament.retractionSpeed| ≤ 2 ^ 50
  zHop : |toMicrometer o.filament.retractionZHop| ≤ 2 ^ 50
  center : VecIn (2 ^ 24) o.printer.center
  margin : printMargin o ≤ 2 ^ 24

/-- The mesh is not too large: at most 2^26 triangles, not more than 16 m away from the origin. -/
structure MeshSmall (m : Mesh) : Prop where
  corners : ∀ f ∈ m, ∀ v ∈ f.corners, VecIn (2 ^ 24) v
  count : m.length ≤ 2 ^ 26

/-- All points of the rectangle are at most `b` away from the axes. -/
def RectIn (b : Int) (R : Rect) : Prop := -b ≤ R.minX ∧ R.maxX ≤ b ∧ -b ≤ R.minY ∧ R.maxY ≤ b

theorem has_ptIn {b : Int} {R : Rect} (hR : RectIn b R) {q : Pt} (h : R.Has q.x q.y) : PtIn b q := by
  obtain ⟨h1, h2, h3, h4⟩ := hR
  obtain ⟨k1, k2, k3, k4⟩ := h
  constructor <;> rw [abs_le] <;> omega

theorem rectIn_mono {b n m : Int} {R : Rect} (h : RectIn b (R.grow m)) (hn : n ≤ m) : RectIn b (R.grow n) := by
  obtain ⟨h1, h2, h3, h4⟩ := h
  simp only [RectIn, Rect.grow] at *
  omega

theorem hasPart_partIn {b : Int} {R : Rect} (hR : RectIn b R) {p : LayerPart} (h : R.HasPart p) : PartIn b p :=
  ⟨fun q hq => has_ptIn hR (h.1 q hq), fun c hc q hq => has_ptIn hR (h.2 c hc q hq)⟩

/-! ## The renderers -/

section
variable {lib : ClipperLib} {tan : ℚ} {o : Options} (ho : PrintFits tan o) {R : Rect} (hR : RectIn (2 ^ 26) (R.grow (printMargin o)))

include ho in
theorem skirtM_eq : skirtRendererM lib o = skirtRenderer lib o := by
  have hw := ho.options.width
  have hb := abs_le.1 ho.moderate.brim
  have hd := abs_le.1 ho.moderate.distance
  have hprod : |o.printer.extrusionWidth * o.print.brimSkirt.brimCount| ≤ 10000 * 2 ^ 20 := by
    rw [abs_mul]
    exact mul_le_mul (by rw [abs_of_nonneg hw.1]; exact hw.2) ho.moderate.brim (abs_nonneg _) (by norm_num)
  have hp := abs_le.1 hprod
  have e1 : skirtDistanceM o = skirtDistance o := by
    unfold skirtDistanceM skirtDistance
    rw [wrap_of_lt (n := o.printer.extrusionWidth * o.print.brimSkirt.brimCount) (by omega) (by omega), wrap_of_lt (n := toMicrometer _ + _) (by omega) (by omega),
      wrap_of_lt (by omega) (by omega)]
  have e2 : skirtLinesM lib o = skirtLines lib o := by
    funext support perimeters
    unfold skirtLinesM skirtLines
    rw [e1, wrap_of_lt (by omega) (by omega), insetM_eq (by rw [abs_le]; omega)]
  unfold skirtRendererM skirtRenderer
  rw [e2]
  rfl

theorem infillM_same {a b : Option Pattern} (hab : FillsSame a b) {l : Layer} {name : String} (hin : Yields (l.partsAttribute name) fun ps => ∀ p ∈ ps, PartIn (2 ^ 27) p)
    (comments : List Str) (n : Nat) (m z : Int) : infillRenderer a name comments n m l z = infillRenderer b name comments n m l z := by
  match a, b, hab with
  | none, none, _ => rfl
  | some f, some g, hab =>
    unfold infillRenderer
    dsimp only
    cases h : l.partsAttribute name with
    | error e => rfl
    | ok ps =>
      have hps := hin ps h
      clear h hin
      simp only
      induction ps with
      | nil => rfl
      | cons p ps ih =>
        unfold infillCalls
        rw [hab n p (hps p (by simp)), ih fun q hq => hps q (List.mem_cons_of_mem _ hq)]

include hR in
theorem attr_partIn {l : Layer} (h : LayerIn R o l) {name : String} (hn : name ≠ "outerBrim") (hb : name ≠ "brim") :
    Yields (l.partsAttribute name) fun ps => ∀ p ∈ ps, PartIn (2 ^ 27) p := by
  refine yields_mono (layerIn_parts h hn) fun ps hps p hp => hasPart_partIn ?_ (hps p hp)
  have h1 := margin_support o
  have h2 := supportMargin_nonneg o
  have : attrMargin o name ≤ printMargin o := by
    unfold attrMargin
    rw [if_neg hb]
    split <;> omega
  have := rectIn_mono hR this
  unfold RectIn at *
  omega

variable (hl : StaysInside lib)

include ho hR hl in
theorem renderersM_same {pa pb : Patterns} (hab : PatternsSame pa pb) (hpb : PatternsIn R o pb) {l : Layer} (h : LayerIn R o l) (m : Int) (n : Nat) (hn : n ≤ 2 ^ 30) :
    List.Forall₂ (ScriptsSame m n l (layerHeight o n)) (standardRenderersM lib o pa) (standardRenderers lib o pb) := by
  have hz := (heightM_eq ho.slicing.initial ho.options.thickness hn).2
  have fits : ∀ r ∈ drawingRenderers lib o pb, ∀ c ∈ (r n m l (layerHeight o n)).calls, CallFits c := by
    intro r hr c hc
    have hd := drawCall_all lib o pb n m l _ r hr c hc
    have hi := layerDraws_in hl ho.moderate hpb h m n c (List.mem_flatMap.2 ⟨r, hr, hc⟩)
    cases c with
    | polygon lay path z op =>
      refine ⟨?_, fun q hq => (has_ptIn hR (hi q hq)).mono (by norm_num)⟩
      rw [show z = layerHeight o n from hd]
      exact hz
    | setExtrudeSpeed v =>
      rcases hd with rfl | rfl
      · exact ho.layerSpeed
      · exact ho.outerSpeed
    | comment t => trivial
    | _ => exact absurd hd (by simp [DrawCall])
  have draw : ∀ a b : Scripts, b ∈ drawingRenderers lib o pb → a n m l (layerHeight o n) = b n m l (layerHeight o n) → ScriptsSame m n l (layerHeight o n) a b :=
    fun a b hb e => ⟨e, fits b hb⟩
  have hattr : ∀ name, name ≠ "outerBrim" → name ≠ "brim" → Yields (l.partsAttribute name) fun ps => ∀ p ∈ ps, PartIn (2 ^ 27) p := fun name h1 h2 => attr_partIn hR h h1 h2
  have hcommon : ∀ c ∈ preLayerCommon o n, CallFits c := by
    intro c hc
    simp only [preLayerCommon, List.mem_append] at hc
    rcases hc with ((hc | hc) | hc) | hc
    · rw [List.mem_singleton.1 hc]; trivial
    · split at hc
      · simp only [List.mem_cons, List.not_mem_nil, or_false] at hc
        rcases hc with rfl | rfl
        · trivial
        · exact ho.layerSpeed
      · simp at hc
    · split at hc
      · split at hc <;> rw [List.mem_singleton.1 hc] <;> trivial
      · simp at hc
    · split at hc
      · simp only [List.mem_cons, List.not_mem_nil, or_false] at hc
        rcases hc with rfl | rfl | rfl <;> trivial
      · simp at hc
  have hstart : ∀ c ∈ preLayerStart o, CallFits c := by
    intro c hc
    simp only [preLayerStart, List.mem_append, List.mem_map] at hc
    rcases hc with (((hc | hc) | hc) | hc) | hc
    · simp only [List.mem_cons, List.not_mem_nil, or_false] at hc
      rcases hc with rfl | rfl <;> trivial
    · split at hc
      · rcases List.mem_append.1 hc with hc | hc
        · split at hc
          · simp only [List.mem_cons, List.not_mem_nil, or_false] at hc
            rcases hc with rfl | rfl <;> trivial
          · cases hc
        · split at hc
          · simp only [List.mem_cons, List.not_mem_nil, or_false] at hc
            rcases hc with rfl | rfl <;> trivial
          · cases hc
      · cases hc
    · rw [List.mem_singleton.1 hc]; trivial
    · obtain ⟨t, -, rfl⟩ := hc; trivial
    · rw [List.mem_singleton.1 hc]; trivial
  have hset : ∀ c ∈ preLayerSettings o, CallFits c := by
    intro c hc
    simp only [preLayerSettings, List.mem_cons, List.not_mem_nil, or_false] at hc
    rcases hc with rfl | rfl | rfl | rfl | rfl | rfl | rfl
    · trivial
    · exact ho.layerSpeed
    · exact ho.moveSpeed
    · exact ho.retractionSpeed
    · trivial
    · exact ho.zHop
    · exact ho.initialSpeed
  have hpre : ∀ c ∈ (preLayer o n m l (layerHeight o n)).calls, CallFits c := by
    intro c hc
    simp only [preLayer] at hc
    rcases List.mem_append.1 hc with hc | hc
    · split at hc
      · exact (List.mem_append.1 hc).elim (hstart c) (hset c)
      · split at hc
        · rw [List.mem_singleton.1 hc]; trivial
        · cases hc
    · exact hcommon c hc
  have hpost : ∀ c ∈ (postLayer o n m l (layerHeight o n)).calls, CallFits c := by
    intro c hc
    simp only [postLayer] at hc
    split at hc
    · simp only [postLayerEnd, List.mem_append, List.mem_map] at hc
      rcases hc with (hc | hc) | hc
      · simp only [List.mem_cons, List.not_mem_nil, or_false] at hc
        rcases hc with rfl | rfl <;> trivial
      · split at hc
        · rcases List.mem_append.1 hc with hc | hc
          · split at hc
            · rw [List.mem_singleton.1 hc]; trivial
            · cases hc
          · split at hc
            · rw [List.mem_singleton.1 hc]; trivial
            · cases hc
        · cases hc
      · obtain ⟨t, -, rfl⟩ := hc; trivial
    · cases hc
  unfold standardRenderersM standardRenderers drawingRenderersM
  refine .cons ⟨rfl, hpre⟩ (.cons (draw _ _ (by simp [drawingRenderers]) (by rw [skirtM_eq ho])) (.cons (draw _ _ (by simp [drawingRenderers]) rfl)
    (.cons (draw _ _ (by simp [drawingRenderers]) rfl) (.cons (draw _ _ (by simp [drawingRenderers]) (infillM_same hab.support (hattr _ (by decide) (by decide)) _ _ _ _))
    (.cons (draw _ _ (by simp [drawingRenderers]) (infillM_same hab.supportInterface (hattr _ (by decide) (by decide)) _ _ _ _))
    (.cons (draw _ _ (by simp [drawingRenderers]) (infillM_same hab.bottom (hattr _ (by decide) (by decide)) _ _ _ _))
    (.cons (draw _ _ (by simp [drawingRenderers]) (infillM_same hab.top (hattr _ (by decide) (by decide)) _ _ _ _))
    (.cons (draw _ _ (by simp [drawingRenderers]) (infillM_same hab.infill (hattr _ (by decide) (by decide)) _ _ _ _))
    (.cons ⟨rfl, hpost⟩ .nil)))))))))

end

/-! ## The number of layers -/

theorem slice_length {lib : ClipperLib} {o : Options} (ho : SliceFits o) {om : OptModel} (hm : ModelFits om) : Yields (slice lib o om) fun ls => ls.length ≤ 2 ^ 29 + 1 := by
  intro ls h
  obtain ⟨layers, hs, h⟩ := bind_ok.1 h
  rw [← (mapM_ok.1 h).length_eq]
  obtain ⟨-, -, hb⟩ := layerNrM_eq ho (z := om.size.z) (hm.size.2.2.trans (by norm_num))
  simp only [sliceSegments, bind_ok, layerCount, quo, if_neg ho.thickness.ne', makeLayers, pure, Except.pure, Except.ok.injEq, exists_eq_left'] at hs
  obtain ⟨l0, hl0, fs, -, h⟩ := hs
  have key : ∀ (gs : List (Tri Vec3)) (i : Nat) (l l' : List (Option SliceLayer)), sliceFaces o i gs l = .ok l' → l'.length = l.length := by
    intro gs
    induction gs with
    | nil => intro _ _ _ h; cases h; rfl
    | cons g gs ih =>
      intro i l l' h
      simp only [sliceFaces, bind_ok] at h
      obtain ⟨l1, h1, h⟩ := h
      rw [ih _ _ _ h, (sliceOneFace_ok h1).1]
  rw [key _ _ _ _ h]
  split at hl0
  · cases hl0
  · cases hl0
    rw [List.length_replicate]
    rw [abs_le] at hb
    omega

/-! ## The program -/

/-- The G-code which the program makes from the content of a file, with int64 arithmetic. -/
def gcodeOfM (ext : Externals) (o : Options) (content : Str) : Res Str := do
  let m := (ext.stl content).map stlTriangleToFace
  describeMesh m
  let om ← optimizeM o m
  let ls ← sliceM ext.lib o om
  let ls ← (standardModifiersM ext.lib ext.tan o).foldlM (fun ls m => m ls) ls
  let pt ← initPatternsM ext.lib ext.trig o om
  match (generateScriptsM ext.lib.isCrossingPerimeter o (standardRenderersM ext.lib o pt) ls
      (newBuilder o.filament.filamentDiameter o.filament.extrusionMultiplier)).2 with
  | (_, some e) => .error e
  | (t, none) => .ok t

theorem box_in {b : Int} {m : Mesh} (hc : ∀ f ∈ m, ∀ v ∈ f.corners, VecIn b v) {lo hi : Vec3} (h : IsBox (vertices m) lo hi) : VecIn b lo ∧ VecIn b hi := by
  have hv : ∀ p ∈ vertices m, VecIn b p := by
    intro p hp
    obtain ⟨f, hf, hp⟩ := List.mem_flatMap.1 hp
    exact hc f hf p hp
  obtain ⟨⟨p1, h1, e1⟩, ⟨p2, h2, e2⟩, ⟨p3, h3, e3⟩, ⟨p4, h4, e4⟩, ⟨p5, h5, e5⟩, p6, h6, e6⟩ := h.reached
  exact ⟨⟨e1 ▸ (hv p1 h1).1, e3 ▸ (hv p3 h3).2.1, e5 ▸ (hv p5 h5).2.2⟩, e2 ▸ (hv p2 h2).1, e4 ▸ (hv p4 h4).2.1, e6 ▸ (hv p6 h6).2.2⟩

theorem box_ptIn {b : Int} {m : Mesh} (hc : ∀ f ∈ m, ∀ v ∈ f.corners, PtIn b v.pointXY) {lo hi : Vec3} (h : IsBox (vertices m) lo hi) : PtIn b lo.pointXY ∧ PtIn b hi.pointXY := by
  have hv : ∀ p ∈ vertices m, PtIn b p.pointXY := by
    intro p hp
    obtain ⟨f, hf, hp⟩ := List.mem_flatMap.1 hp
    exact hc f hf p hp
  obtain ⟨⟨p1, h1, e1⟩, ⟨p2, h2, e2⟩, ⟨p3, h3, e3⟩, ⟨p4, h4, e4⟩, -⟩ := h.reached
  have k1 := (hv p1 h1).1
  have k2 := (hv p2 h2).1
  have k3 := (hv p3 h3).2
  have k4 := (hv p4 h4).2
  simp only [Vec3.pointXY] at k1 k2 k3 k4
  rw [e1] at k1
  rw [e2] at k2
  rw [e3] at k3
  rw [e4] at k4
  exact ⟨⟨k1, k3⟩, k2, k4⟩

/-- **C127** The G-code computed with 64 bit integers is that of unbounded integers. -/
theorem C127_gcode (ext : Externals) (o : Options) (content : Str) (hl : StaysInside ext.lib) (hopen : OpenClipping ext.lib) (htrig : TurnsBack ext.trig) (ho : PrintFits ext.tan o)
    (hm : MeshSmall ((ext.stl content).map stlTriangleToFace)) : gcodeOfM ext o content = gcodeOf ext o content := by
  unfold gcodeOfM gcodeOf
  dsimp only
  generalize (ext.stl content).map stlTriangleToFace = mesh at hm ⊢
  have hfit : MeshFits o mesh := ⟨fun f hf v hv => by
      have := hm.corners f hf v hv
      exact ⟨this.1.trans (by norm_num), this.2.1.trans (by norm_num), this.2.2.trans (by norm_num)⟩, by
      have := ho.center
      exact ⟨this.1.trans (by norm_num), this.2.1.trans (by norm_num), this.2.2.trans (by norm_num)⟩, ho.slicing.meld⟩
  refine bind_congr_yields (yields_any _) fun _ _ => ?_
  rw [(C126_optimize hfit).1]
  cases hom : optimize o mesh with
  | error e => rfl
  | ok om =>
    have hmf := modelFits_of hfit hm.count hom
    simp only [bind, Except.bind]
    rw [C126_slice ho.slicing hmf]
    obtain ⟨fs, _, _, _, hfs, -⟩ := C48_faces o _ om hom
    obtain ⟨⟨lo, hi, hbox, hsize⟩, hplace⟩ := C51_place o _ om hom fs hfs
    have hlohi : VecIn (2 ^ 24) lo ∧ VecIn (2 ^ 24) hi := box_in hm.corners hbox
    generalize hA : modelArea o.printer.center lo hi = A
    have hR : RectIn (2 ^ 26) (A.grow (printMargin o)) := by
      have h0 := ho.margin
      obtain ⟨⟨a1, a2, -⟩, b1, b2, -⟩ := hlohi
      obtain ⟨c1, c2, -⟩ := ho.center
      rw [abs_le] at a1 a2 b1 b2 c1 c2
      subst hA
      simp only [RectIn, modelArea, Rect.grow]
      refine ⟨?_, ?_, ?_, ?_⟩ <;> omega
    have hface : ∀ f ∈ fs, FaceIn A f := by
      intro f hf p hp
      obtain ⟨-, -, hx, hy⟩ := hplace f hf p hp
      rw [hsize] at hx hy
      subst hA
      simp only [modelArea, Rect.Has] at *
      have hx := abs_le.1 (show |p.x - o.printer.center.x| ≤ (hi.x - lo.x + 1) / 2 by omega)
      have hy := abs_le.1 (show |p.y - o.printer.center.y| ≤ (hi.y - lo.y + 1) / 2 by omega)
      refine ⟨?_, ?_, ?_, ?_⟩ <;> omega
    clear hplace hbox hlohi hsize
    have hA0 : RectIn (2 ^ 26) A := by
      have := rectIn_mono hR (zero_le_margin o)
      rwa [grow_zero] at this
    cases hls : slice ext.lib o om with
    | error e => rfl
    | ok ls =>
      have hlen := slice_length ho.slicing hmf ls hls
      have hin : LayersIn A o ls := by
        intro l hlm
        obtain ⟨parts, rfl, hp⟩ := slice_in hl ho.slicing.thickness hfs hface ls hls l hlm
        exact layerIn_plain hp
      simp only
      rw [C127_modifiers ho.options ls (by omega)]
      cases hls' : (standardModifiers ext.lib ext.tan o).foldlM (fun ls m => m ls) ls with
      | error e => rfl
      | ok ls' =>
        have hin' := modifiers_in hl ho.moderate ext.tan hin ls' hls'
        have hlen' : ls'.length = ls.length := by
          have := congrArg List.length (C61_parts ext.lib ext.tan o _ (fun m h => h) ls ls' hls')
          simpa using this
        simp only
        unfold initPatternsM initPatterns
        have hlims : Yields om.min fun lo => Yields om.max fun hi => PtIn (2 ^ 26) lo.pointXY ∧ PtIn (2 ^ 26) hi.pointXY := by
          intro lo hlo hi hhi
          simp only [OptModel.min, OptModel.max, hfs, bind, Except.bind] at hlo hhi
          have hb := mesh_box hlo hhi
          exact box_ptIn (fun f hf v hv => has_ptIn (q := v.pointXY) hA0 (hface f hf v hv)) hb
        cases hmin : om.min with
        | error e => rfl
        | ok lo =>
          cases hmax : om.max with
          | error e => rfl
          | ok hi =>
            obtain ⟨k1, k2⟩ := hlims lo hmin hi hmax
            simp only [bind, Except.bind]
            have hsame := C127_patterns hl htrig ho.options ho.percent k1 k2
            have hsmall : (A.grow (supportMargin o)).Small := by
              have := rectIn_mono hR (show supportMargin o ≤ printMargin o by have := margin_support o; omega)
              unfold RectIn at this
              unfold Rect.Small
              omega
            have hpin := patterns_in hl hopen htrig ho.moderate hsmall lo.pointXY hi.pointXY
            cases hpb : standardPatterns ext.lib ext.trig o lo.pointXY hi.pointXY with
            | error e =>
              rw [hpb] at hsame
              cases hpa : standardPatternsM ext.lib ext.trig o lo.pointXY hi.pointXY with
              | error e' => rw [hpa] at hsame; cases hsame; rfl
              | ok pa => rw [hpa] at hsame; exact hsame.elim
            | ok pb =>
              rw [hpb] at hsame
              cases hpa : standardPatternsM ext.lib ext.trig o lo.pointXY hi.pointXY with
              | error e' => rw [hpa] at hsame; exact hsame.elim
              | ok pa =>
                rw [hpa] at hsame
                simp only
                rw [generateScriptsM_eq ho.slicing.initial ho.options.thickness (by omega) fun k hk l hlm => renderersM_same ho hR hl hsame (hpin pb hpb) (hin' l hlm) _ k hk]
                rfl

/-- The program with int64 arithmetic reads the input, and writes the G-code made from its content, or does nothing to the files. -/
theorem goSliceM_eq (ext : Externals) (o : Options) (w : World) :
    (w.files o.goSlice.inputFilePath = none → goSliceM ext o w = (w, .error (.err "file does not exist"))) ∧
    ∀ content, w.files o.goSlice.inputFilePath = some content →
      (∀ e, gcodeOfM ext o content = .error e → ∃ w', w'.files = w.files ∧ goSliceM ext o w = (w', .error e)) ∧
      ∀ t, gcodeOfM ext o content = .ok t → ∃ w', w'.files = w.files ∧ w'.creatable = w.creatable ∧ w'.space = w.space ∧
        goSliceM ext o w = writeFile t (outputPath o.goSlice) w' := by
  refine ⟨fun h => ?_, fun content h => ?_⟩
  · simp only [goSliceM, process, standardHandlersM, Act.andThen, readModel, h]
  · simp only [goSliceM, process, standardHandlersM, Act.andThen, readModel, h, gcodeOfM, pureAct, runModifiers_pure, bind, Except.bind]
    cases describeMesh ((ext.stl content).map stlTriangleToFace) with
    | error e => exact ⟨fun e' he => ⟨w, rfl, by cases he; rfl⟩, fun t ht => nomatch ht⟩
    | ok _ =>
      dsimp only
      cases optimizeM o ((ext.stl content).map stlTriangleToFace) with
      | error e => exact ⟨fun e' he => ⟨w, rfl, by cases he; rfl⟩, fun t ht => nomatch ht⟩
      | ok om =>
        dsimp only
        cases sliceM ext.lib o om with
        | error e => exact ⟨fun e' he => ⟨w, rfl, by cases he; rfl⟩, fun t ht => nomatch ht⟩
        | ok ls =>
          dsimp only
          cases (standardModifiersM ext.lib ext.tan o).foldlM (fun ls m => m ls) ls with
          | error e => exact ⟨fun e' he => ⟨w, rfl, by cases he; rfl⟩, fun t ht => nomatch ht⟩
          | ok ls' =>
            dsimp only
            cases initPatternsM ext.lib ext.trig o om with
            | error e => exact ⟨fun e' he => ⟨w, rfl, by cases he; rfl⟩, fun t ht => nomatch ht⟩
            | ok p =>
              dsimp only
              rcases (generateScriptsM ext.lib.isCrossingPerimeter o (standardRenderersM ext.lib o p) ls'
                (newBuilder o.filament.filamentDiameter o.filament.extrusionMultiplier)).2 with ⟨t, _ | e⟩
              · exact ⟨fun e' he => (nomatch he), fun t' ht => ⟨{ w with patterns := p }, rfl, rfl, rfl, by cases ht; rfl⟩⟩
              · exact ⟨fun e' he => ⟨{ w with patterns := p }, rfl, by cases he; rfl⟩, fun t ht => nomatch ht⟩

theorem writeFile_same {t path : Str} {w w' : World} (hf : w.files = w'.files) (hc : w.creatable = w'.creatable) (hs : w.space = w'.space) :
    (writeFile t path w).2 = (writeFile t path w').2 ∧ (writeFile t path w).1.files = (writeFile t path w').1.files := by
  unfold writeFile
  rw [hf, hc, hs]
  split <;> exact ⟨rfl, by first | rfl | exact hf⟩

/-- **C127** With 64 bit integers, the program ends in the same way and leaves the same files as with unbounded integers, if neither the model nor an option is too large. -/
theorem C127_program (ext : Externals) (o : Options) (w : World) (hl : StaysInside ext.lib) (hopen : OpenClipping ext.lib) (htrig : TurnsBack ext.trig) (ho : PrintFits ext.tan o)
    (hm : ∀ content, w.files o.goSlice.inputFilePath = some content → MeshSmall ((ext.stl content).map stlTriangleToFace)) :
    (goSliceM ext o w).2 = (goSlice ext o w).2 ∧ (goSliceM ext o w).1.files = (goSlice ext o w).1.files := by
  obtain ⟨a1, a2⟩ := goSliceM_eq ext o w
  obtain ⟨b1, b2⟩ := goSlice_eq ext o w
  cases hc : w.files o.goSlice.inputFilePath with
  | none => rw [a1 hc, b1 hc]; exact ⟨rfl, rfl⟩
  | some content =>
    obtain ⟨a3, a4⟩ := a2 content hc
    obtain ⟨b3, b4⟩ := b2 content hc
    rw [C127_gcode ext o content hl hopen htrig ho (hm content hc)] at a3 a4
    cases hg : gcodeOf ext o content with
    | error e =>
      obtain ⟨w1, f1, e1⟩ := a3 e hg
      obtain ⟨w2, f2, e2⟩ := b3 e hg
      rw [e1, e2]
      exact ⟨rfl, f1.trans f2.symm⟩
    | ok t =>
      obtain ⟨w1, f1, c1, s1, e1⟩ := a4 t hg
      obtain ⟨w2, f2, c2, s2, e2⟩ := b4 t hg
      rw [e1, e2]
      exact writeFile_same (f1.trans f2.symm) (c1.trans c2.symm) (s1.trans s2.symm)

theorem printFits_default : PrintFits copyExt.tan {} where
  options := ⟨by decide, by decide +kernel, by decide +kernel, by decide +kernel, by decide +kernel, by decide +kernel, by decide +kernel, by decide +kernel, by decide +kernel⟩
  moderate := moderate_default
  slicing := ⟨by decide +kernel, by decide +kernel, by decide +kernel, by decide +kernel, by decide +kernel⟩
  percent := by decide
  layerSpeed := by decide +kernel
  outerSpeed := by decide +kernel
  initialSpeed := by decide +kernel
  moveSpeed := by decide +kernel
  retractionSpeed := by decide +kernel
  zHop := by decide +kernel
  center := by unfold VecIn; decide +kernel
  margin := by decide +kernel

/-- Non-vacuity of `C127_gcode`: the tetrahedron of 1 mm is printed with the default options also with 64 bit integers. -/
example : ∃ t, gcodeOfM copyExt {} [] = .ok t ∧ gcodeOf copyExt {} [] = .ok t := by
  have hm : cornerMesh = (copyExt.stl []).map stlTriangleToFace := by decide +kernel
  obtain ⟨t, ht⟩ := C90_gcode copyExt {} [] sensible_default (fun _ _ _ => rfl) copy_open cornerMesh hm (by decide) (by decide) (by unfold Separated; decide +kernel)
    corner_noGap (.inr rfl)
  refine ⟨t, ?_, ht⟩
  rw [C127_gcode copyExt {} [] copy_inside copy_open turns_never printFits_default ?_, ht]
  rw [← hm]
  exact ⟨by unfold VecIn; decide +kernel, by decide +kernel⟩

/-- **C127** The bounds are needed: with a speed of 2^60 mm/s the printed feed rate is negative. -/
theorem C127_limit : (((newBuilder 0 0).setMoveSpeed (2 ^ 60)).addMoveM ⟨1, 0, 0⟩ 0).buf = "G0 X0.00 Y0.00 Z0.00 F-4611686018427387904\n".toList ∧
    (((newBuilder 0 0).setMoveSpeed (2 ^ 60)).addMove ⟨1, 0, 0⟩ 0).buf = "G0 X0.00 Y0.00 Z0.00 F69175290276410818560\n".toList := by
  decide +kernel

end Verif
