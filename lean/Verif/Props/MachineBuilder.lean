import Verif.Model.MachineBuilder
import Verif.Props.MachineLinear
import Verif.Props.PrintAreaMoves

/-! # `gcode` with int64 arithmetic (C127) -/
namespace Verif
open Verif.Go Verif.Model Verif.Spec Verif.Spec.GCode

/-- The settings of the builder are not too large. -/
structure SettingsFit (s : Settings) : Prop where
  move : |s.moveSpeed| ≤ 2 ^ 50
  extrude : |s.extrudeSpeed| ≤ 2 ^ 50
  override : |s.override| ≤ 2 ^ 50
  retraction : |s.retractionSpeed| ≤ 2 ^ 50
  zHop : |toMicrometer s.zHop| ≤ 2 ^ 50

/-- The numbers of a call are not too large. -/
def CallFits : Call → Prop
  | .setMoveSpeed v => |truncZ v| ≤ 2 ^ 50
  | .setExtrudeSpeed v => |truncZ v| ≤ 2 ^ 50
  | .setExtrudeSpeedOverride v => |truncZ v| ≤ 2 ^ 50
  | .setRetractionSpeed v => |truncZ v| ≤ 2 ^ 50
  | .setRetractionZHop v => |toMicrometer v| ≤ 2 ^ 50
  | .moveSpeed _ _ s => |s| ≤ 2 ^ 50
  | .polygon _ path z _ => |z| ≤ 2 ^ 60 ∧ ∀ q ∈ path, PtIn (2 ^ 28) q
  | _ => True

theorem addMoveSpeedM_eq {g : Builder} {p : Vec3} {e : ℚ} {s : Int} (hs : |s| ≤ 2 ^ 50) : g.addMoveSpeedM p e s = g.addMoveSpeed p e s := by
  have h : wrap (s * 60) = s * 60 := by
    rw [abs_le] at hs
    exact wrap_of_lt (by omega) (by omega)
  unfold Builder.addMoveSpeedM Builder.addMoveSpeed
  rw [h]

theorem addMoveM_eq {g : Builder} (hg : SettingsFit (settingsOf g)) {p : Vec3} {e : ℚ} : g.addMoveM p e = g.addMove p e := by
  unfold Builder.addMoveM Builder.addMove
  refine addMoveSpeedM_eq ?_
  split
  · split
    · exact hg.extrude
    · exact hg.override
  · exact hg.move

theorem fit_addMoveSpeed {g : Builder} (hg : SettingsFit (settingsOf g)) (p : Vec3) (e : ℚ) (s : Int) : SettingsFit (settingsOf (g.addMoveSpeed p e s)) := by
  rw [(addMoveSpeed_settings g p e s).1]; exact hg

theorem fit_addMove {g : Builder} (hg : SettingsFit (settingsOf g)) (p : Vec3) (e : ℚ) : SettingsFit (settingsOf (g.addMove p e)) := fit_addMoveSpeed hg _ _ _

theorem addLinesM_eq {z : Int} {g : Builder} (hg : SettingsFit (settingsOf g)) {prev : Pt} (hp : PtIn (2 ^ 28) prev) {path : Path} (h : ∀ q ∈ path, PtIn (2 ^ 28) q) :
    Builder.addLinesM z g prev path = Builder.addLines z g prev path ∧ SettingsFit (settingsOf (Builder.addLines z g prev path)) := by
  induction path generalizing g prev with
  | nil => exact ⟨rfl, hg⟩
  | cons p rest ih =>
    have hpt := h p (by simp)
    unfold Builder.addLinesM Builder.addLines
    rw [subM_in hpt hp (by norm_num), addMoveM_eq hg]
    exact ih (fit_addMove hg _ _) hpt fun q hq => h q (List.mem_cons_of_mem _ hq)

theorem addTravelM_eq {g : Builder} (hg : SettingsFit (settingsOf g)) {p0 : Pt} {z : Int} (hz : |z| ≤ 2 ^ 60) {isCrossing : Bool} :
    g.addTravelM p0 z isCrossing = g.addTravel p0 z isCrossing ∧ SettingsFit (settingsOf (g.addTravel p0 z isCrossing)) := by
  have hw : wrap (z + toMicrometer g.zHopOnRetract) = z + toMicrometer g.zHopOnRetract :=
    wrap_of_abs (b := 2 ^ 61) ((abs_add_le _ _).trans (by have := hg.zHop; simp only [settingsOf] at this; omega)) (by norm_num)
  unfold Builder.addTravelM Builder.addTravel
  rw [hw]
  generalize (if isCrossing = true ∧ g.zHopOnRetract > 0 then z + toMicrometer g.zHopOnRetract else z) = zMove
  cases isCrossing with
  | false =>
    simp only [Bool.false_eq_true, if_false]
    exact ⟨addMoveM_eq hg, fit_addMove hg _ _⟩
  | true =>
    simp only [if_true]
    rw [addMoveSpeedM_eq (s := g.retractionSpeed) hg.retraction]
    have h1 := fit_addMoveSpeed hg g.currentPosition (-g.retractionAmount) g.retractionSpeed
    generalize g.addMoveSpeed g.currentPosition (-g.retractionAmount) g.retractionSpeed = g1 at h1 ⊢
    rw [addMoveM_eq h1]
    have h2 : SettingsFit (settingsOf (if g1.zHopOnRetract > 0 then g1.addMove ⟨g1.currentPosition.x, g1.currentPosition.y, zMove⟩ 0 else g1)) := by
      split
      · exact fit_addMove h1 _ _
      · exact h1
    generalize (if g1.zHopOnRetract > 0 then g1.addMove ⟨g1.currentPosition.x, g1.currentPosition.y, zMove⟩ 0 else g1) = g2 at h2 ⊢
    rw [addMoveM_eq h2]
    have h3 := fit_addMove h2 ⟨p0.x, p0.y, zMove⟩ 0
    generalize g2.addMove ⟨p0.x, p0.y, zMove⟩ 0 = g3 at h3 ⊢
    rw [addMoveM_eq h3]
    have h4 : SettingsFit (settingsOf (if g3.zHopOnRetract > 0 then g3.addMove ⟨p0.x, p0.y, z⟩ 0 else g3)) := by
      split
      · exact fit_addMove h3 _ _
      · exact h3
    generalize (if g3.zHopOnRetract > 0 then g3.addMove ⟨p0.x, p0.y, z⟩ 0 else g3) = g4 at h4 ⊢
    exact ⟨addMoveSpeedM_eq h4.retraction, fit_addMoveSpeed h4 _ _ _⟩

theorem addPolygonM_eq {crossing : List LayerPart → Path → Bool × Bool} {g : Builder} (hg : SettingsFit (settingsOf g)) {currentLayer : Option (List LayerPart)} {path : Path}
    (hp : ∀ q ∈ path, PtIn (2 ^ 28) q) {z : Int} (hz : |z| ≤ 2 ^ 60) {isOpen : Bool} :
    g.addPolygonM crossing currentLayer path z isOpen = g.addPolygon crossing currentLayer path z isOpen ∧
      Yields (g.addPolygon crossing currentLayer path z isOpen) fun g => SettingsFit (settingsOf g) := by
  unfold Builder.addPolygonM Builder.addPolygon
  split
  · exact ⟨rfl, yields_ok hg⟩
  · have hsub := C05_int64_subsequence path (-1)
    generalize douglasPeuckerM path (-1) = short at hsub
    have hin : ∀ q ∈ short, PtIn (2 ^ 28) q := fun q hq => hp q (hsub.subset hq)
    cases short with
    | nil => exact ⟨rfl, fun a h => by cases h⟩
    | cons p0 rest =>
      have h0 := hin p0 (by simp)
      have hr : ∀ q ∈ rest, PtIn (2 ^ 28) q := fun q hq => hin q (List.mem_cons_of_mem _ hq)
      have hlast := hin _ (List.getLast_mem (l := p0 :: rest) (by simp))
      dsimp only
      constructor
      · refine bind_congr_yields (yields_any _) fun isCrossing _ => ?_
        obtain ⟨e1, f1⟩ := addTravelM_eq hg (p0 := p0) hz (isCrossing := isCrossing)
        obtain ⟨e2, f2⟩ := addLinesM_eq (z := z) f1 h0 hr
        rw [e1, e2, subM_in h0 hlast (by norm_num), addMoveM_eq f2]
      · refine yields_bind (yields_any _) fun isCrossing _ => ?_
        obtain ⟨e1, f1⟩ := addTravelM_eq hg (p0 := p0) hz (isCrossing := isCrossing)
        obtain ⟨e2, f2⟩ := addLinesM_eq (z := z) f1 h0 hr
        split
        · exact yields_pure f2
        · exact yields_pure (fit_addMove f2 _ _)

theorem exec1M_eq {crossing : List LayerPart → Path → Bool × Bool} {g : Builder} (hg : SettingsFit (settingsOf g)) {c : Call} (hc : CallFits c) :
    g.exec1M crossing c = g.exec1 crossing c ∧ Yields (g.exec1 crossing c) fun g => SettingsFit (settingsOf g) := by
  cases c with
  | polygon l p z op => exact addPolygonM_eq hg hc.2 hc.1
  | moveSpeed p e s => exact ⟨by simp only [Builder.exec1M, Builder.exec1, addMoveSpeedM_eq hc], yields_ok (fit_addMoveSpeed hg _ _ _)⟩
  | move p e => exact ⟨by simp only [Builder.exec1M, Builder.exec1, addMoveM_eq hg], yields_ok (fit_addMove hg _ _)⟩
  | setMoveSpeed v => exact ⟨rfl, yields_ok ⟨hc, hg.extrude, hg.override, hg.retraction, hg.zHop⟩⟩
  | setExtrudeSpeed v => exact ⟨rfl, yields_ok ⟨hg.move, hc, hg.override, hg.retraction, hg.zHop⟩⟩
  | setExtrudeSpeedOverride v => exact ⟨rfl, yields_ok ⟨hg.move, hg.extrude, hc, hg.retraction, hg.zHop⟩⟩
  | disableExtrudeSpeedOverride => exact ⟨rfl, yields_ok ⟨hg.move, hg.extrude, by simp [settingsOf, Builder.disableExtrudeSpeedOverride], hg.retraction, hg.zHop⟩⟩
  | setRetractionSpeed v => exact ⟨rfl, yields_ok ⟨hg.move, hg.extrude, hg.override, hc, hg.zHop⟩⟩
  | setRetractionZHop v => exact ⟨rfl, yields_ok ⟨hg.move, hg.extrude, hg.override, hg.retraction, hc⟩⟩
  | _ => exact ⟨rfl, yields_ok ⟨hg.move, hg.extrude, hg.override, hg.retraction, hg.zHop⟩⟩

theorem execCallsM_eq {crossing : List LayerPart → Path → Bool × Bool} {g : Builder} (hg : SettingsFit (settingsOf g)) (cs : List Call) (hc : ∀ c ∈ cs, CallFits c) :
    execCallsM crossing g cs = execCalls crossing g cs ∧ SettingsFit (settingsOf (execCalls crossing g cs).1) := by
  induction cs generalizing g with
  | nil => exact ⟨rfl, hg⟩
  | cons c cs ih =>
    obtain ⟨e, h⟩ := exec1M_eq (crossing := crossing) hg (hc c (by simp))
    unfold execCallsM execCalls
    rw [e]
    cases hx : g.exec1 crossing c with
    | error f => exact ⟨rfl, hg⟩
    | ok g' => exact ih (h g' hx) fun c hcm => hc c (List.mem_cons_of_mem _ hcm)

theorem runM_eq {crossing : List LayerPart → Path → Bool × Bool} {g : Builder} (hg : SettingsFit (settingsOf g)) (s : Script) (hc : ∀ c ∈ s.calls, CallFits c) :
    s.runM crossing g = s.run crossing g ∧ SettingsFit (settingsOf (s.run crossing g).1) := by
  obtain ⟨e, h⟩ := execCallsM_eq (crossing := crossing) hg s.calls hc
  unfold Script.runM Script.run
  rw [e]
  generalize execCalls crossing g s.calls = r at h ⊢
  obtain ⟨g', _ | f⟩ := r
  · exact ⟨rfl, h⟩
  · exact ⟨rfl, h⟩

/-- The scripts of both renderers are the same on layer `n`, and their calls are not too large. -/
def ScriptsSame (m : Int) (n : Nat) (l : Layer) (z : Int) (a b : Scripts) : Prop := a n m l z = b n m l z ∧ ∀ c ∈ (b n m l z).calls, CallFits c

theorem heightM_eq {o : Options} {n : Nat} (hi : |o.print.initialLayerThickness| ≤ 2 ^ 28) (ht : 0 < o.print.layerThickness ∧ o.print.layerThickness ≤ 2 ^ 28) (hn : n ≤ 2 ^ 30) :
    wrap (o.print.initialLayerThickness + wrap ((n : Int) * o.print.layerThickness)) = o.print.initialLayerThickness + (n : Int) * o.print.layerThickness ∧
      |o.print.initialLayerThickness + (n : Int) * o.print.layerThickness| ≤ 2 ^ 60 := by
  have h1 : (n : Int) * o.print.layerThickness ≤ 2 ^ 30 * 2 ^ 28 := mul_le_mul (by exact_mod_cast hn) ht.2 ht.1.le (by norm_num)
  have h2 : 0 ≤ (n : Int) * o.print.layerThickness := mul_nonneg (by positivity) ht.1.le
  rw [abs_le] at hi
  rw [wrap_of_lt (n := (n : Int) * o.print.layerThickness) (by omega) (by omega), wrap_of_lt (by omega) (by omega), abs_le]
  refine ⟨rfl, ?_, ?_⟩ <;> omega

theorem renderLayerM_eq {crossing : List LayerPart → Path → Bool × Bool} {o : Options} {m : Int} {n : Nat} {l : Layer} (hi : |o.print.initialLayerThickness| ≤ 2 ^ 28)
    (ht : 0 < o.print.layerThickness ∧ o.print.layerThickness ≤ 2 ^ 28) (hn : n ≤ 2 ^ 30) {as bs : List Scripts} (h : List.Forall₂ (ScriptsSame m n l (layerHeight o n)) as bs)
    {g : Builder} (hg : SettingsFit (settingsOf g)) :
    renderLayerM o m n l (as.map (Scripts.rendererM crossing)) g = renderLayer o m n l (bs.map (Scripts.renderer crossing)) g ∧
      SettingsFit (settingsOf (renderLayer o m n l (bs.map (Scripts.renderer crossing)) g).1) := by
  induction h generalizing g with
  | nil => exact ⟨rfl, hg⟩
  | cons hab _ ih =>
    rename_i a b as bs _
    simp only [List.map_cons, renderLayerM, renderLayer]
    rw [(heightM_eq hi ht hn).1]
    have hz : o.print.initialLayerThickness + (n : Int) * o.print.layerThickness = layerHeight o n := rfl
    rw [hz]
    obtain ⟨e, hf⟩ := runM_eq (crossing := crossing) hg _ hab.2
    have ea : Scripts.rendererM crossing a g n m l (layerHeight o n) = Scripts.renderer crossing b g n m l (layerHeight o n) := by
      unfold Scripts.rendererM Scripts.renderer
      rw [hab.1, e]
    have eb : SettingsFit (settingsOf (Scripts.renderer crossing b g n m l (layerHeight o n)).1) := hf
    rw [ea]
    generalize Scripts.renderer crossing b g n m l (layerHeight o n) = r at eb ⊢
    obtain ⟨g', _ | f⟩ := r
    · exact ih eb
    · exact ⟨rfl, eb⟩

theorem renderLayersM_eq {crossing : List LayerPart → Path → Bool × Bool} {o : Options} {m : Int} (hi : |o.print.initialLayerThickness| ≤ 2 ^ 28)
    (ht : 0 < o.print.layerThickness ∧ o.print.layerThickness ≤ 2 ^ 28) {as bs : List Scripts} (layers : List Layer) (n : Nat) (hn : n + layers.length ≤ 2 ^ 30)
    (h : ∀ k, k ≤ 2 ^ 30 → ∀ l ∈ layers, List.Forall₂ (ScriptsSame m k l (layerHeight o k)) as bs) {g : Builder} (hg : SettingsFit (settingsOf g)) :
    renderLayersM o m (as.map (Scripts.rendererM crossing)) n layers g = renderLayers o m (bs.map (Scripts.renderer crossing)) n layers g := by
  induction layers generalizing n g with
  | nil => rfl
  | cons l layers ih =>
    simp only [List.length_cons] at hn
    obtain ⟨e, hf⟩ := renderLayerM_eq (crossing := crossing) hi ht (by omega) (h n (by omega) l (by simp)) hg
    unfold renderLayersM renderLayers
    rw [e]
    generalize renderLayer o m n l (bs.map (Scripts.renderer crossing)) g = r at hf ⊢
    obtain ⟨g', _ | f⟩ := r
    · exact ih (n + 1) (by omega) (fun k hk l hl => h k hk l (List.mem_cons_of_mem _ hl)) hf
    · rfl

theorem generateScriptsM_eq {crossing : List LayerPart → Path → Bool × Bool} {o : Options} (hi : |o.print.initialLayerThickness| ≤ 2 ^ 28)
    (ht : 0 < o.print.layerThickness ∧ o.print.layerThickness ≤ 2 ^ 28) {as bs : List Scripts} {layers : List Layer} (hn : layers.length ≤ 2 ^ 30)
    (h : ∀ k, k ≤ 2 ^ 30 → ∀ l ∈ layers, List.Forall₂ (ScriptsSame (layers.length - 1) k l (layerHeight o k)) as bs) (g : Builder) :
    generateScriptsM crossing o as layers g = generateScripts crossing o bs layers g := by
  unfold generateScriptsM generateScripts generateM generate
  dsimp only
  rw [renderLayersM_eq hi ht layers 0 (by omega) h ?_]
  · cases renderLayers o (layers.length - 1) (bs.map (Scripts.renderer crossing)) 0 layers _; rfl
  exact ⟨by simp [settingsOf, newBuilder], by simp [settingsOf, newBuilder], by simp [settingsOf, newBuilder], by simp [settingsOf, newBuilder], by
    rw [show (settingsOf (newBuilder o.filament.filamentDiameter o.filament.extrusionMultiplier)).zHop = 0 from rfl]; decide +kernel⟩

end Verif
