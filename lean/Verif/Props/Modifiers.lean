import Verif.Spec.Layers
import Verif.Model.Modifiers
import Verif.Model.Renderers
import Verif.Props.Clip
import Verif.Lemmas.Res

/-! # Modifiers: what they change, and when they succeed (C42, C61, C64, C66, C68, C69, C82) -/
namespace Verif.Spec
open Verif.Model

theorem SameBut.refl (names : List String) (l : Layer) : SameBut names l l := ⟨rfl, fun _ _ => rfl⟩

theorem SameBut.trans {names : List String} {a b c : Layer} (h1 : SameBut names a b) (h2 : SameBut names b c) : SameBut names a c :=
  ⟨h2.1.trans h1.1, fun n hn => (h2.2 n hn).trans (h1.2 n hn)⟩

theorem SameBut.mono {names names' : List String} (hs : ∀ n ∈ names, n ∈ names') {a b : Layer} (h : SameBut names a b) :
    SameBut names' a b := ⟨h.1, fun n hn => h.2 n fun hm => hn (hs n hm)⟩

theorem SameLayersBut.refl (names : List String) (ls : List Layer) : SameLayersBut names ls ls := by
  induction ls with
  | nil => exact .nil
  | cons l ls ih => exact .cons (.refl _ _) ih

theorem SameLayersBut.trans {names : List String} {a b c : List Layer} (h1 : SameLayersBut names a b) (h2 : SameLayersBut names b c) :
    SameLayersBut names a c := by
  induction h1 generalizing c with
  | nil => exact h2
  | cons h _ ih =>
    cases h2 with
    | cons h' t' => exact .cons (h.trans h') (ih t')

theorem SameLayersBut.mono {names names' : List String} (hs : ∀ n ∈ names, n ∈ names') {a b : List Layer} (h : SameLayersBut names a b) :
    SameLayersBut names' a b := by
  induction h with
  | nil => exact .nil
  | cons h _ ih => exact .cons (h.mono hs) ih

theorem SameLayersBut.set {names : List String} (ls : List Layer) (k : Nat) (l' : Layer) (h : ∀ l, ls[k]? = some l → SameBut names l l') :
    SameLayersBut names ls (ls.set k l') := by
  induction ls generalizing k with
  | nil => exact .nil
  | cons l ls ih =>
    cases k with
    | zero => exact .cons (h l rfl) (SameLayersBut.refl _ _)
    | succ k => exact .cons (.refl _ _) (ih k fun m hm => h m (by simpa using hm))

end Verif.Spec

namespace Verif
open Verif.Go Verif.Model Verif.Spec

@[simp] theorem attr_extend (l : Layer) (n : String) : l.extend.attr n = l.attr n := by
  cases l with
  | mk p a => cases a <;> rfl

theorem attr_set_extend (l : Layer) (n m : String) (v : Attr) : (l.extend.set n v).attr m = if m = n then some v else l.attr m := by
  cases l with
  | mk p a => cases a <;> simp [Layer.extend, Layer.set, Layer.attr, AttrMap.insert]

/-- The layer has an attribute map. -/
def IsExtended (l : Layer) : Prop := l.attrs.isSome = true

theorem extended_extend (l : Layer) : IsExtended l.extend := rfl

theorem extended_set {l : Layer} (h : IsExtended l) (n : String) (v : Attr) : IsExtended (l.set n v) := by
  cases l with
  | mk p a => cases a <;> simp_all [IsExtended, Layer.set]

theorem attr_set {l : Layer} (h : IsExtended l) (n m : String) (v : Attr) :
    (l.set n v).attr m = if m = n then some v else l.attr m := by
  cases l with
  | mk p a =>
    cases a with
    | none => simp [IsExtended] at h
    | some f => simp [Layer.set, Layer.attr, AttrMap.insert]

@[simp] theorem parts_set (l : Layer) (n : String) (v : Attr) : (l.set n v).parts = l.parts := rfl
@[simp] theorem parts_extend (l : Layer) : l.extend.parts = l.parts := rfl

theorem parts_setParts (l : Layer) (n : String) (ps : List LayerPart) : (setParts l n ps).parts = l.parts := by
  unfold setParts; split <;> rfl

theorem extended_setParts {l : Layer} (h : IsExtended l) (n : String) (ps : List LayerPart) : IsExtended (setParts l n ps) := by
  unfold setParts; split
  · exact extended_set h _ _
  · exact h

theorem attr_setParts {l : Layer} (h : IsExtended l) (n m : String) (ps : List LayerPart) :
    (setParts l n ps).attr m = if m = n ∧ ps ≠ [] then some (.parts ps) else l.attr m := by
  unfold setParts
  cases ps with
  | nil => simp
  | cons p ps => simp [attr_set h]

theorem attr_set_other (l : Layer) {n m : String} (v : Attr) (h : m ≠ n) : (l.set n v).attr m = l.attr m := by
  cases l with
  | mk p a => cases a <;> simp [Layer.set, Layer.attr, AttrMap.insert, h]

/-! ## C61: modifiers never change the sliced parts -/

theorem perimeterLayer_same (lib : ClipperLib) (o : Options) (l l' : Layer) (h : perimeterLayer lib o l = .ok l') :
    SameBut ["perimeters", "overlapPerimeters"] l l' := by
  simp only [perimeterLayer, bind_ok, pure, Except.pure, Except.ok.injEq] at h
  obtain ⟨overlap, _, rfl⟩ := h
  refine ⟨rfl, fun n hn => ?_⟩
  simp only [List.mem_cons, List.not_mem_nil, or_false, not_or] at hn
  rw [attr_set_other _ _ hn.2, attr_set_other _ _ hn.1, attr_extend]

/-- C61: perimeter modifier. -/
theorem C61_perimeter (lib : ClipperLib) (o : Options) (ls ls' : List Layer) (h : perimeterModifier lib o ls = .ok ls') :
    SameLayersBut ["perimeters", "overlapPerimeters"] ls ls' :=
  (mapM_ok.1 h).imp fun _ _ h => perimeterLayer_same lib o _ _ h

theorem setParts_same (l : Layer) (n : String) (ps : List LayerPart) : SameBut [n] l (setParts l n ps) := by
  refine ⟨parts_setParts _ _ _, fun m hm => ?_⟩
  unfold setParts
  split
  · exact attr_set_other _ _ (by simpa using hm)
  · rfl

theorem extend_same (names : List String) (l : Layer) : SameBut names l l.extend := ⟨rfl, fun n _ => attr_extend l n⟩

theorem infillLayer_same (lib : ClipperLib) (o : Options) (ls : List Layer) (k : Nat) (l l' : Layer)
    (h : infillLayer lib o ls k l = .ok (some l')) : SameBut ["bottom", "top"] l l' := by
  simp only [infillLayer, bind_ok, pure, Except.pure] at h
  obtain ⟨ov, _, h⟩ := h
  split at h
  · simp at h
  · obtain ⟨pe, _, h⟩ := bind_ok.1 h
    split at h
    · simp at h
    · obtain ⟨inf, _, h⟩ := bind_ok.1 h
      obtain ⟨top, _, h⟩ := bind_ok.1 h
      simp only [Except.ok.injEq, Option.some.injEq] at h
      subst h
      exact (extend_same _ l).trans (((setParts_same _ _ _).mono (by simp)).trans ((setParts_same _ _ _).mono (by simp)))

theorem infillLoop_same (lib : ClipperLib) (o : Options) (n k : Nat) (ls ls' : List Layer) (h : infillLoop lib o n k ls = .ok ls') :
    SameLayersBut ["bottom", "top"] ls ls' := by
  induction n generalizing k ls with
  | zero => cases h; exact .refl _ _
  | succ n ih =>
    simp only [infillLoop, bind_ok] at h
    obtain ⟨l, hl, new, hn, h⟩ := h
    have hl := (index_ok hl).2
    cases new with
    | none => cases h; exact .refl _ _
    | some new =>
      refine SameLayersBut.trans (SameLayersBut.set ls k new fun m hm => ?_) (ih _ _ h)
      have : m = l := by simpa [hm] using hl
      subst this
      exact infillLayer_same lib o ls k _ _ hn

/-- C61: infill modifier. -/
theorem C61_infill (lib : ClipperLib) (o : Options) (ls ls' : List Layer) (h : infillModifier lib o ls = .ok ls') :
    SameLayersBut ["bottom", "top"] ls ls' := infillLoop_same lib o _ _ _ _ h

theorem internalLayer_same (lib : ClipperLib) (o : Options) (l l' : Layer) (h : internalLayer lib o l = .ok (some l')) :
    SameBut ["infill"] l l' := by
  simp only [internalLayer, bind_ok, pure, Except.pure] at h
  obtain ⟨ov, _, h⟩ := h
  split at h
  · simp at h
  · simp only [bind_ok] at h
    obtain ⟨b, _, t, _, i, _, h⟩ := h
    simp only [Except.ok.injEq, Option.some.injEq] at h
    subst h
    split
    · exact ⟨rfl, fun n hn => attr_set_other _ _ (by simpa using hn)⟩
    · exact .refl _ _

/-- C61: internal infill modifier. -/
theorem C61_internal (lib : ClipperLib) (o : Options) (ls ls' : List Layer) (h : internalInfillModifier lib o ls = .ok ls') :
    SameLayersBut ["infill"] ls ls' := by
  induction ls generalizing ls' with
  | nil => cases h; exact .nil
  | cons l ls ih =>
    simp only [internalInfillModifier, bind_ok] at h
    obtain ⟨new, hn, h⟩ := h
    cases new with
    | none => cases h; exact .refl _ _
    | some new =>
      simp only [bind_ok, pure, Except.pure, Except.ok.injEq] at h
      obtain ⟨rest, hr, rfl⟩ := h
      exact .cons (internalLayer_same lib o _ _ hn) (ih _ hr)

theorem brimLayer_same (lib : ClipperLib) (o : Options) (l l' : Layer) (h : brimLayer lib o l = .ok l') :
    SameBut ["brim", "outerBrim"] l l' := by
  simp only [brimLayer, bind_ok, pure, Except.pure] at h
  obtain ⟨pe, _, h⟩ := h
  split at h
  · cases h; exact .refl _ _
  · split at h
    · cases h; exact .refl _ _
    · simp only [Except.ok.injEq] at h
      subst h
      unfold setBrim
      refine SameBut.trans ?_ ((setParts_same _ _ _).mono (by simp))
      split
      · exact (extend_same _ l).trans ⟨rfl, fun n hn => attr_set_other _ _ (by simp at hn; exact hn.1)⟩
      · exact extend_same _ l

/-- C61: brim modifier. -/
theorem C61_brim (lib : ClipperLib) (o : Options) (ls ls' : List Layer) (h : brimModifier lib o ls = .ok ls') :
    SameLayersBut ["brim", "outerBrim"] ls ls' := by
  unfold brimModifier at h
  split at h
  · cases h; exact .refl _ _
  · cases ls with
    | nil => cases h
    | cons l ls =>
      simp only [bind_ok, pure, Except.pure, Except.ok.injEq] at h
      obtain ⟨l', hl, rfl⟩ := h
      exact .cons (brimLayer_same lib o _ _ hl) (SameLayersBut.refl _ _)

theorem detectorLoop_same (lib : ClipperLib) (tan : ℚ) (o : Options) (n k : Nat) (ls ls' : List Layer)
    (h : detectorLoop lib tan o n k ls = .ok ls') : SameLayersBut ["support"] ls ls' := by
  induction n generalizing k ls with
  | zero => cases h; exact .refl _ _
  | succ n ih =>
    unfold detectorLoop at h
    split at h
    · exact ih _ _ h
    · simp only [bind_ok] at h
      obtain ⟨below, _, above, _, support, _, target, ht, h⟩ := h
      refine SameLayersBut.trans (SameLayersBut.set ls _ _ fun m hm => ?_) (ih _ _ h)
      have : m = target := by simpa [hm] using (index_ok ht).2
      subst this
      exact (extend_same _ m).trans (setParts_same _ _ _)

/-- C61: support detector. -/
theorem C61_detector (lib : ClipperLib) (tan : ℚ) (o : Options) (ls ls' : List Layer) (h : supportDetector lib tan o ls = .ok ls') :
    SameLayersBut ["support"] ls ls' := by
  unfold supportDetector at h
  split at h
  · exact detectorLoop_same lib tan o _ _ _ _ h
  · cases h; exact .refl _ _

theorem setSupport_same (l : Layer) (a i r : List LayerPart) :
    SameBut ["fullSupport", "supportInterface", "support"] l (setSupport l a i r) := by
  refine ((extend_same _ l).trans (((setParts_same _ _ _).mono (by simp)).trans ((setParts_same _ _ _).mono (by simp)))).trans
    ⟨rfl, fun n hn => attr_set_other _ _ (by simp at hn; exact hn.2.2)⟩

theorem generatorStep_same (lib : ClipperLib) (o : Options) (k : Nat) (ls : List Layer) (last : List LayerPart)
    (r : List Layer × List LayerPart) (h : generatorStep lib o k ls last = .ok r) :
    SameLayersBut ["fullSupport", "supportInterface", "support"] ls r.1 := by
  simp only [generatorStep, bind_ok] at h
  obtain ⟨layer, _, below, hb, current, _, bs, _, h⟩ := h
  split at h
  · cases h; exact .refl _ _
  · simp only [bind_ok, pure, Except.pure, Except.ok.injEq] at h
    obtain ⟨result, _, actual, _, parts, _, rfl⟩ := h
    refine SameLayersBut.set ls _ _ fun m hm => ?_
    have hb := (index_ok hb).2
    have e : ((k : Int) - 1).toNat = k - 1 := by omega
    rw [e] at hb
    have : m = below := by simpa [hm] using hb
    subst this
    exact setSupport_same _ _ _ _

theorem generatorLoop_same (lib : ClipperLib) (o : Options) (k : Nat) (ls ls' : List Layer) (last : List LayerPart)
    (h : generatorLoop lib o k ls last = .ok ls') : SameLayersBut ["fullSupport", "supportInterface", "support"] ls ls' := by
  induction k generalizing ls last with
  | zero => cases h; exact .refl _ _
  | succ k ih =>
    simp only [generatorLoop, bind_ok] at h
    obtain ⟨r, hr, h⟩ := h
    exact (generatorStep_same lib o _ _ _ _ hr).trans (ih _ _ h)

/-- C61: support generator. -/
theorem C61_generator (lib : ClipperLib) (o : Options) (ls ls' : List Layer) (h : supportGenerator lib o ls = .ok ls') :
    SameLayersBut ["fullSupport", "supportInterface", "support"] ls ls' := by
  unfold supportGenerator at h
  split at h
  · exact generatorLoop_same lib o _ _ _ _ h
  · cases h; exact .refl _ _

/-- C61: after any sequence of the modifiers (each any number of times, with any library behaviour, in any order) the layers have the same parts, and
there are as many as before. -/
theorem C61_parts (lib : ClipperLib) (tan : ℚ) (o : Options) (ms : List (List Layer → Res (List Layer)))
    (hm : ∀ m ∈ ms, m ∈ standardModifiers lib tan o) (ls ls' : List Layer) (h : ms.foldlM (fun ls m => m ls) ls = .ok ls') :
    ls'.map Layer.parts = ls.map Layer.parts := by
  have key : ∀ names a b, SameLayersBut names a b → b.map Layer.parts = a.map Layer.parts := by
    intro names a b h
    induction h with
    | nil => rfl
    | cons h _ ih => simp [ih, h.1]
  induction ms generalizing ls with
  | nil => simp only [List.foldlM_nil, pure, Except.pure, Except.ok.injEq] at h; rw [h]
  | cons m ms ih =>
    simp only [List.foldlM_cons, bind_ok] at h
    obtain ⟨a, ha, h⟩ := h
    rw [ih (fun m hm' => hm m (List.mem_cons_of_mem _ hm')) a h]
    have := hm m List.mem_cons_self
    simp only [standardModifiers, List.mem_cons, List.not_mem_nil, or_false] at this
    rcases this with rfl | rfl | rfl | rfl | rfl | rfl
    · exact key _ _ _ (C61_perimeter _ _ _ _ ha)
    · exact key _ _ _ (C61_infill _ _ _ _ ha)
    · exact key _ _ _ (C61_internal _ _ _ _ ha)
    · exact key _ _ _ (C61_brim _ _ _ _ ha)
    · exact key _ _ _ (C61_detector _ _ _ _ _ ha)
    · exact key _ _ _ (C61_generator _ _ _ _ ha)

/-! ## C66: support only when enabled -/

/-- C66. -/
theorem C66_disabled (lib : ClipperLib) (tan : ℚ) (o : Options) (ls : List Layer) (h : o.print.support.enabled = false) :
    supportDetector lib tan o ls = .ok ls ∧ supportGenerator lib o ls = .ok ls := by
  simp [supportDetector, supportGenerator, h]

/-! ## C68: accessors -/

/-- C68: `PartsAttribute` (also used for `BottomInfill` and `TopInfill`). -/
theorem C68_parts (l : Layer) (name : String) :
    (∀ r, l.attr name = some (.parts r) → l.partsAttribute name = .ok r) ∧
    (l.attr name = none → l.partsAttribute name = .ok []) ∧
    (∀ v, l.attr name = some v → (∀ r, v ≠ .parts r) → ∃ m, l.partsAttribute name = .error (.err m)) := by
  unfold Layer.partsAttribute
  refine ⟨fun r h => by rw [h], fun h => by rw [h], fun v h hv => ?_⟩
  rw [h]
  cases v with
  | parts r => exact absurd rfl (hv r)
  | _ => exact ⟨_, rfl⟩

/-- C68: `OverlapPerimeters`. -/
theorem C68_overlap (l : Layer) :
    (∀ r, l.attr "overlapPerimeters" = some (.partLists r) → l.overlapPerimeters = .ok r) ∧
    (l.attr "overlapPerimeters" = none → l.overlapPerimeters = .ok []) ∧
    (∀ v, l.attr "overlapPerimeters" = some v → (∀ r, v ≠ .partLists r) → ∃ m, l.overlapPerimeters = .error (.err m)) := by
  unfold Layer.overlapPerimeters
  refine ⟨fun r h => by rw [h], fun h => by rw [h], fun v h hv => ?_⟩
  rw [h]
  cases v with
  | partLists r => exact absurd rfl (hv r)
  | _ => exact ⟨_, rfl⟩

/-- C68: `Perimeters`. -/
theorem C68_perimeters (l : Layer) :
    (∀ r, l.attr "perimeters" = some (.offsetResult r) → l.perimeters = .ok r) ∧
    (l.attr "perimeters" = none → l.perimeters = .ok []) ∧
    (∀ v, l.attr "perimeters" = some v → (∀ r, v ≠ .offsetResult r) → ∃ m, l.perimeters = .error (.err m)) := by
  unfold Layer.perimeters
  refine ⟨fun r h => by rw [h], fun h => by rw [h], fun v h hv => ?_⟩
  rw [h]
  cases v with
  | offsetResult r => exact absurd rfl (hv r)
  | _ => exact ⟨_, rfl⟩

/-- C68: `Brim`. -/
theorem C68_brim (l : Layer) :
    (∀ r, l.attr "brim" = some (.offsetResult r) → l.brim = .ok r) ∧
    (l.attr "brim" = none → l.brim = .ok []) ∧
    (∀ v, l.attr "brim" = some v → (∀ r, v ≠ .offsetResult r) → ∃ m, l.brim = .error (.err m)) := by
  unfold Layer.brim
  refine ⟨fun r h => by rw [h], fun h => by rw [h], fun v h hv => ?_⟩
  rw [h]
  cases v with
  | offsetResult r => exact absurd rfl (hv r)
  | _ => exact ⟨_, rfl⟩

/-- C68: `BrimOuterDimension`. -/
theorem C68_outerBrim (l : Layer) :
    (∀ r, l.attr "outerBrim" = some (.parts r) → l.brimOuterDimension = .ok r) ∧
    (l.attr "outerBrim" = none → l.brimOuterDimension = .ok []) ∧
    (∀ v, l.attr "outerBrim" = some v → (∀ r, v ≠ .parts r) → ∃ m, l.brimOuterDimension = .error (.err m)) := by
  unfold Layer.brimOuterDimension
  refine ⟨fun r h => by rw [h], fun h => by rw [h], fun v h hv => ?_⟩
  rw [h]
  cases v with
  | parts r => exact absurd rfl (hv r)
  | _ => exact ⟨_, rfl⟩

/-- C68: `FullSupport`. -/
theorem C68_fullSupport (l : Layer) :
    (∀ r, l.attr "fullSupport" = some (.parts r) → l.fullSupport = .ok r) ∧
    (l.attr "fullSupport" = none → l.fullSupport = .ok []) ∧
    (∀ v, l.attr "fullSupport" = some v → (∀ r, v ≠ .parts r) → ∃ m, l.fullSupport = .error (.err m)) := by
  unfold Layer.fullSupport
  refine ⟨fun r h => by rw [h], fun h => by rw [h], fun v h hv => ?_⟩
  rw [h]
  cases v with
  | parts r => exact absurd rfl (hv r)
  | _ => exact ⟨_, rfl⟩

example : ∃ m, (Layer.mk [] (some fun _ => some (.other 1))).partsAttribute "top" = .error (.err m) :=
  (C68_parts _ _).2.2 (.other 1) rfl (by simp)

/-! ## C69: number of perimeters -/

theorem overlapOfPart_ok (lib : ClipperLib) (o : Options) (part : List (List LayerPart)) (h : part ≠ []) :
    overlapOfPart lib o part = .ok ((part.getLastD []).flatMap fun p =>
      calculateOverlapPerimeter lib p o.print.infillOverlapPercent o.printer.extrusionWidth) := by
  have hi : index part ((part.length : Int) - 1) = .ok (part.getLastD []) := by
    have hlen : 0 < part.length := List.length_pos_iff.2 h
    have e : (((part.length : Int) - 1).toNat) = part.length - 1 := by omega
    unfold index
    rw [if_pos (by omega), e, List.getElem?_eq_getElem (by omega)]
    simp only [Except.ok.injEq]
    rw [List.getLastD_eq_getLast?, List.getLast?_eq_getElem?, List.getElem?_eq_getElem (by omega)]
    rfl
  simp only [overlapOfPart, hi]
  rfl

/-- The attributes of a layer after the perimeter modifier. -/
theorem perimeterLayer_ok (lib : ClipperLib) (o : Options) (l : Layer) (h : 1 ≤ o.print.insetCount) :
    perimeterLayer lib o l = .ok ((l.extend.set "perimeters" (.offsetResult (perimetersOf lib o l.parts))).set "overlapPerimeters"
      (.partLists ((perimetersOf lib o l.parts).map fun part => (part.getLastD []).flatMap fun p =>
        calculateOverlapPerimeter lib p o.print.infillOverlapPercent o.printer.extrusionWidth))) := by
  have hm : (perimetersOf lib o l.parts).mapM (overlapOfPart lib o) = .ok ((perimetersOf lib o l.parts).map fun part =>
      (part.getLastD []).flatMap fun p => calculateOverlapPerimeter lib p o.print.infillOverlapPercent o.printer.extrusionWidth) := by
    rw [mapM_ok, List.forall₂_map_right_iff, List.forall₂_same]
    intro part hp
    refine overlapOfPart_ok lib o part ?_
    obtain ⟨q, _, rfl⟩ := List.mem_map.1 hp
    intro hc
    have := C39_count lib q o.printer.extrusionWidth o.print.insetCount ((-o.printer.extrusionWidth).tdiv 2)
    rw [hc] at this
    simp at this
    omega
  simp only [perimeterLayer, hm]
  rfl

/-- C69: with at least one perimeter the perimeter modifier succeeds. -/
theorem C69_succeeds (lib : ClipperLib) (o : Options) (ls : List Layer) (h : 1 ≤ o.print.insetCount) :
    ∃ ls', perimeterModifier lib o ls = .ok ls' := by
  refine ⟨_, mapM_ok.2 ((List.forall₂_map_right_iff (f := fun l => ((l.extend.set "perimeters" (.offsetResult (perimetersOf lib o l.parts))).set
    "overlapPerimeters" (.partLists ((perimetersOf lib o l.parts).map fun part => (part.getLastD []).flatMap fun p =>
        calculateOverlapPerimeter lib p o.print.infillOverlapPercent o.printer.extrusionWidth)))) (u := ls)).2 ?_)⟩
  rw [List.forall₂_same]
  exact fun l _ => perimeterLayer_ok lib o l h

theorem mapM_error {α β : Type} {f : α → Res β} {l : List α} (h : ∀ a ∈ l, (∃ b, f a = .ok b) ∨ ∃ m, f a = .error (.panic m))
    (he : ∃ a ∈ l, ∃ m, f a = .error (.panic m)) : ∃ m, l.mapM f = .error (.panic m) := by
  induction l with
  | nil => simp at he
  | cons a l ih =>
    rw [List.mapM_cons]
    rcases h a List.mem_cons_self with ⟨b, hb⟩ | ⟨m, hm⟩
    · obtain ⟨c, hc, m, hm⟩ := he
      rcases List.mem_cons.1 hc with rfl | hc
      · rw [hb] at hm; cases hm
      · obtain ⟨m', hm'⟩ := ih (fun a ha => h a (List.mem_cons_of_mem _ ha)) ⟨c, hc, m, hm⟩
        exact ⟨m', by rw [hb, hm']; rfl⟩
    · exact ⟨m, by rw [hm]; rfl⟩

/-- C69: without perimeters the perimeter modifier panics as soon as a layer has a part. -/
theorem C69_panics (lib : ClipperLib) (o : Options) (ls : List Layer) (h : o.print.insetCount ≤ 0) (hp : ∃ l ∈ ls, l.parts ≠ []) :
    ∃ m, perimeterModifier lib o ls = .error (.panic m) := by
  have hpart : ∀ l : Layer, l.parts ≠ [] → ∃ m, perimeterLayer lib o l = .error (.panic m) := by
    intro l hl
    have : ∃ m, (perimetersOf lib o l.parts).mapM (overlapOfPart lib o) = .error (.panic m) := by
      have hover : ∀ part ∈ perimetersOf lib o l.parts, ∃ m, overlapOfPart lib o part = .error (.panic m) := by
        intro part hp
        obtain ⟨q, _, rfl⟩ := List.mem_map.1 hp
        have := C39_count lib q o.printer.extrusionWidth o.print.insetCount ((-o.printer.extrusionWidth).tdiv 2)
        have e : lib.inset q o.printer.extrusionWidth o.print.insetCount ((-o.printer.extrusionWidth).tdiv 2) = [] :=
          List.length_eq_zero_iff.1 (by omega)
        rw [e]
        exact ⟨"index out of range", rfl⟩
      refine mapM_error (fun a ha => Or.inr (hover a ha)) ?_
      obtain ⟨p, hp⟩ := List.exists_mem_of_ne_nil _ hl
      exact ⟨_, List.mem_map_of_mem hp, hover _ (List.mem_map_of_mem hp)⟩
    obtain ⟨m, hm⟩ := this
    exact ⟨m, by simp only [perimeterLayer, hm]; rfl⟩
  refine mapM_error (fun l _ => ?_) ?_
  · by_cases hl : l.parts = []
    · refine Or.inl ⟨(l.extend.set "perimeters" (.offsetResult [])).set "overlapPerimeters" (.partLists []), ?_⟩
      simp [perimeterLayer, hl, perimetersOf, ClipperLib.insetLayer, bind, Except.bind, pure, Except.pure]
    · exact Or.inr (hpart l hl)
  · obtain ⟨l, hl, hp⟩ := hp
    exact ⟨l, hl, hpart l hp⟩

/-- The attributes which the perimeter modifier leaves. -/
theorem perimeterModifier_get (lib : ClipperLib) (o : Options) (ls ls' : List Layer) (hi : 1 ≤ o.print.insetCount)
    (h : perimeterModifier lib o ls = .ok ls') (k : Nat) (l' : Layer) (hk : ls'[k]? = some l') :
    ∃ l, ls[k]? = some l ∧ l'.parts = l.parts ∧ IsExtended l' ∧ l'.perimeters = .ok (perimetersOf lib o l.parts) ∧
      l'.overlapPerimeters = .ok ((perimetersOf lib o l.parts).map fun part => (part.getLastD []).flatMap fun p =>
        calculateOverlapPerimeter lib p o.print.infillOverlapPercent o.printer.extrusionWidth) := by
  have h := mapM_ok.1 h
  rw [List.forall₂_iff_get] at h
  obtain ⟨hlen, h⟩ := h
  have hk' : k < ls'.length := by
    by_contra hc
    rw [List.getElem?_eq_none (by omega)] at hk
    cases hk
  have h' := h k (by omega) hk'
  have e : ls'.get ⟨k, hk'⟩ = l' := by
    rw [List.getElem?_eq_getElem hk'] at hk
    simpa using hk
  rw [perimeterLayer_ok lib o _ hi, e] at h'
  simp only [Except.ok.injEq] at h'
  refine ⟨_, List.getElem?_eq_getElem (by omega), ?_⟩
  subst h'
  refine ⟨rfl, extended_set (extended_set (extended_extend _) _ _) _ _, ?_, ?_⟩
  · refine (C68_perimeters _).1 _ ?_
    rw [attr_set_other _ _ (by decide), attr_set_extend]
    rfl
  · refine (C68_overlap _).1 _ ?_
    rw [attr_set (extended_set (extended_extend _) _ _)]
    rfl

/-! ## C82: one inset means only the initial offset -/

theorem oneInset (lib : ClipperLib) (parts : List LayerPart) (offset initial : Int) :
    toOneDimension (lib.insetLayer parts offset 1 initial) = parts.flatMap fun p => lib.inset1 p (r64 (initial : ℚ)) := by
  rw [C40_toOneDimension]
  induction parts with
  | nil => rfl
  | cons p ps ih => simpa [ClipperLib.insetLayer, ClipperLib.inset, ClipperLib.insetLoop] using ih

/-- C82: the gap which the support keeps from the model is only half of the option `Gap` (truncated). -/
theorem C82_gap (lib : ClipperLib) (o : Options) (l : Layer) (h : |toMicrometer o.print.support.gap| ≤ 2 ^ 53) :
    biggerLayer lib o l = l.parts.flatMap fun p =>
      polyTreeToLayerParts (lib.offset ((p.outline :: p.holes).map fun path => path.map fun q => (⟨q.x, q.y⟩ : IntPoint))
        (((toMicrometer o.print.support.gap).tdiv 2 : Int) : ℚ)) := by
  have hr : r64 (((toMicrometer o.print.support.gap).tdiv 2 : Int) : ℚ) = (((toMicrometer o.print.support.gap).tdiv 2 : Int) : ℚ) := by
    apply r64_intCast
    rw [Int.abs_eq_natAbs] at h ⊢
    have := Int.natAbs_tdiv_le_natAbs (toMicrometer o.print.support.gap) 2
    omega
  rw [biggerLayer, oneInset, hr]
  rfl

/-- C82: a part of a layer needs support if it is outside of the layer below enlarged by only half of the distance for the threshold
angle (`d = thickness * tan`, rounded). -/
theorem C82_threshold (lib : ClipperLib) (tan : ℚ) (o : Options) (below above : Layer) (support : List LayerPart)
    (h : |supportDistance tan o| ≤ 2 ^ 53) (hs : detectSupport lib tan o below above = .ok support) :
    ∃ overhang, lib.difference above.parts (below.parts.flatMap fun p =>
        polyTreeToLayerParts (lib.offset ((p.outline :: p.holes).map fun path => path.map fun q => (⟨q.x, q.y⟩ : IntPoint))
          (((supportDistance tan o).tdiv 2 : Int) : ℚ))) = some overhang ∧
      support = overhang.flatMap fun p => lib.inset1 p (r64 (((toMicrometer o.print.support.patternSpacing * 3).tdiv 2 : Int) : ℚ)) := by
  have hr : r64 (((supportDistance tan o).tdiv 2 : Int) : ℚ) = (((supportDistance tan o).tdiv 2 : Int) : ℚ) := by
    apply r64_intCast
    rw [Int.abs_eq_natAbs] at h ⊢
    have := Int.natAbs_tdiv_le_natAbs (supportDistance tan o) 2
    omega
  simp only [detectSupport, bind_ok, oneInset, hr, pure, Except.pure, Except.ok.injEq] at hs
  obtain ⟨ov, h1, h2⟩ := hs
  refine ⟨ov, ?_, h2.symm⟩
  unfold orErr at h1
  split at h1
  · next e => cases h1; exact e
  · cases h1

/-! ## C42: skirt and brim -/

/-- C42: skirt line number `k` is the hull of the first layer, enlarged by the skirt distance and `BrimCount + 1 + k` line widths. -/
theorem C42_skirt (lib : ClipperLib) (o : Options) (support : List LayerPart) (pe : OffsetResult)
    (hb : |skirtDistance o| + o.print.brimSkirt.skirtCount * |o.printer.extrusionWidth| ≤ 2 ^ 53) (k : Nat)
    (hk : (k : Int) < o.print.brimSkirt.skirtCount) :
    (skirtLines lib o support pe)[k]? = some (polyTreeToLayerParts (lib.offset
      [(lib.hull ((support ++ pe.flatten.flatten).flatMap LayerPart.outline)).map fun q => (⟨q.x, q.y⟩ : IntPoint)]
      ((toMicrometer o.print.brimSkirt.skirtDistance + (o.print.brimSkirt.brimCount + 1 + k) * o.printer.extrusionWidth : Int) : ℚ))) := by
  rw [skirtLines, C39_distance _ _ _ _ _ (by rw [abs_neg]; exact hb) k hk]
  have e : skirtDistance o - k * -o.printer.extrusionWidth =
      toMicrometer o.print.brimSkirt.skirtDistance + (o.print.brimSkirt.brimCount + 1 + k) * o.printer.extrusionWidth := by
    simp only [skirtDistance]; ring
  rw [e]
  simp only [ClipperLib.hullOf, C40_toOneDimension, List.map_cons, List.map_nil]

/-- C42: brim line number `k` around an outermost outline of the first perimeters is this outline, enlarged by `k + 1` line widths. (So the
outermost brim line is at `BrimCount` line widths, and the innermost skirt line is farther away by the skirt distance and a line width.) -/
theorem C42_brim (lib : ClipperLib) (o : Options) (ls ls' : List Layer) (l : Layer) (pe : OffsetResult) (ps : Paths)
    (h : brimModifier lib o (l :: ls) = .ok ls') (hpe : l.perimeters = .ok pe) (hne : pe ≠ []) (hc : o.print.brimSkirt.brimCount ≠ 0)
    (ht : lib.topLevelPolygons (pe.flatMap fun part => part.filterMap List.head?) = some ps) (hps : ps ≠ [])
    (hb : |o.printer.extrusionWidth| + o.print.brimSkirt.brimCount * |o.printer.extrusionWidth| ≤ 2 ^ 53) :
    ∃ l' brim, ls' = l' :: ls ∧ l'.brim = .ok brim ∧ brim.length = ps.length ∧
      ∀ (i : Nat) (p : Path), ps[i]? = some p → ∃ lines, brim[i]? = some lines ∧ lines.length = o.print.brimSkirt.brimCount.toNat ∧
        ∀ k : Nat, (k : Int) < o.print.brimSkirt.brimCount →
          lines[k]? = some (polyTreeToLayerParts (lib.offset [p.map fun q => (⟨q.x, q.y⟩ : IntPoint)]
            (((k + 1) * o.printer.extrusionWidth : Int) : ℚ))) := by
  simp only [brimModifier, if_neg hc, bind_ok, pure, Except.pure, Except.ok.injEq] at h
  obtain ⟨l', hl, rfl⟩ := h
  have eout : topLevelOutlines lib pe = ps.map fun p => ⟨p, []⟩ := by
    simp only [topLevelOutlines, outerPerimeters, ht, Option.getD_some]
  simp only [brimLayer, hpe, bind_ok, pure, Except.pure, Except.ok.injEq] at hl
  obtain ⟨_, rfl, hl⟩ := hl
  rw [if_neg hne, if_neg (by rw [eout]; simpa using hps)] at hl
  simp only [Except.ok.injEq] at hl
  have hlen : 0 < ps.length := List.length_pos_iff.2 hps
  refine ⟨l', brimLines lib o (topLevelOutlines lib pe), rfl, ?_, by simp [ClipperLib.insetLayer, brimLines, eout], ?_⟩
  · refine (C68_brim _).1 _ ?_
    subst hl
    unfold setBrim
    rw [if_pos (by simpa [ClipperLib.insetLayer, brimLines, eout] using hlen)]
    rw [attr_setParts (extended_set (extended_extend _) _ _), if_neg (by simp), attr_set_extend]
    rfl
  · intro i p hi
    rw [brimLines, eout]
    refine ⟨_, (C39_layer lib _ _ _ _).2 i ⟨p, []⟩ (by simp [hi]), C39_count _ _ _ _ _, fun k hk => ?_⟩
    rw [C39_distance _ _ _ _ _ (by rw [abs_neg]; exact hb) k hk]
    have e : o.printer.extrusionWidth - k * -o.printer.extrusionWidth = (k + 1) * o.printer.extrusionWidth := by ring
    rw [e]
    rfl

/-! ## C64: a layer without parts stops the infill -/

/-- The layer has perimeters. -/
def HasWalls (l : Layer) : Prop := ∃ ov pe, l.overlapPerimeters = .ok ov ∧ l.perimeters = .ok pe ∧ ov ≠ [] ∧ pe ≠ []

theorem infillLayer_none {lib : ClipperLib} {o : Options} {ls : List Layer} {k : Nat} {l : Layer}
    (h : infillLayer lib o ls k l = .ok none) : ¬HasWalls l := by
  rintro ⟨ov, pe, h1, h2, h3, h4⟩
  simp only [infillLayer, h1, h2, bind_ok, pure, Except.pure, Except.ok.injEq] at h
  obtain ⟨_, rfl, h⟩ := h
  rw [if_neg h3] at h
  obtain ⟨_, h', h⟩ := bind_ok.1 h
  cases h'
  rw [if_neg h4] at h
  simp only [bind_ok, Except.ok.injEq] at h
  obtain ⟨_, _, _, _, h⟩ := h
  cases h

/-- What the infill modifier does with layer `j`, if this layer and all layers below have perimeters. -/
theorem infillLoop_get (lib : ClipperLib) (o : Options) (n k : Nat) (ls ls' : List Layer) (h : infillLoop lib o n k ls = .ok ls')
    (hn : k + n = ls.length) (j : Nat) (l : Layer) (hkj : k ≤ j) (hj : ls[j]? = some l)
    (hw : ∀ (i : Nat) (m : Layer), k ≤ i → i ≤ j → ls[i]? = some m → HasWalls m) :
    ∃ lsj l', SameLayersBut ["bottom", "top"] ls lsj ∧ infillLayer lib o lsj j l = .ok (some l') ∧ ls'[j]? = some l' := by
  have hjl : j < ls.length := by
    by_contra hc
    rw [List.getElem?_eq_none (by omega)] at hj
    cases hj
  induction n generalizing k ls with
  | zero => omega
  | succ n ih =>
    simp only [infillLoop, bind_ok] at h
    obtain ⟨l0, hl, new, hnew, h⟩ := h
    have hl := (index_ok hl).2
    simp only [Int.toNat_natCast] at hl
    cases new with
    | none => exact absurd (hw k l0 le_rfl hkj hl) (infillLayer_none hnew)
    | some new =>
      have hset : SameLayersBut ["bottom", "top"] ls (ls.set k new) := SameLayersBut.set ls k new fun m hm => by
        have : m = l0 := by simpa [hm] using hl
        subst this
        exact infillLayer_same lib o ls k _ _ hnew
      by_cases hkj' : k = j
      · subst hkj'
        have : l = l0 := by simpa [hj] using hl
        subst this
        refine ⟨ls, new, .refl _ _, hnew, ?_⟩
        have keep : ∀ n k' (ls ls' : List Layer), infillLoop lib o n k' ls = .ok ls' → ∀ i, i < k' → ls'[i]? = ls[i]? := by
          intro n
          induction n with
          | zero => intro k' ls ls' h i _; cases h; rfl
          | succ n ih =>
            intro k' ls ls' h i hi
            simp only [infillLoop, bind_ok] at h
            obtain ⟨l0, hl, new, hnew, h⟩ := h
            cases new with
            | none => cases h; rfl
            | some new => rw [ih _ _ _ h i (by omega), List.getElem?_set_ne (by omega)]
        rw [keep _ _ _ _ h k (by omega), List.getElem?_set_self hjl]
      · have hj' : (ls.set k new)[j]? = some l := by rw [List.getElem?_set_ne hkj', hj]
        obtain ⟨lsj, l', h1, h2, h3⟩ := ih (k + 1) (ls.set k new) h (by simp; omega) (by omega) hj'
          (fun i m hi1 hi2 hm => hw i m (by omega) hi2 (by rw [List.getElem?_set_ne (by omega)] at hm; exact hm)) (by simpa using hjl)
        exact ⟨lsj, l', hset.trans h1, h2, h3⟩

theorem infillLoop_stops (lib : ClipperLib) (o : Options) (n k : Nat) (ls ls' : List Layer) (h : infillLoop lib o n k ls = .ok ls')
    (hn : k + n = ls.length) (e : Nat) (l : Layer) (he : ls[e]? = some l) (hp : l.overlapPerimeters = .ok []) (hke : k ≤ e) (j : Nat) (hj : e ≤ j) :
    ls'[j]? = ls[j]? := by
  induction n generalizing k ls with
  | zero => cases h; rfl
  | succ n ih =>
    simp only [infillLoop, bind_ok] at h
    obtain ⟨l0, hl, new, hnew, h⟩ := h
    have hl := (index_ok hl).2
    simp only [Int.toNat_natCast] at hl
    cases new with
    | none => cases h; rfl
    | some new =>
      by_cases hk : k = e
      · subst hk
        have : l = l0 := by simpa [he] using hl
        subst this
        simp only [infillLayer, hp, bind_ok, Except.ok.injEq] at hnew
        obtain ⟨_, rfl, hnew⟩ := hnew
        simp only [if_true, pure, Except.pure, Except.ok.injEq] at hnew
        cases hnew
      · rw [ih (k + 1) (ls.set k new) h (by simp; omega) (by rw [List.getElem?_set_ne hk, he]) (by omega), List.getElem?_set_ne (by omega)]

/-- C64 (violation): a layer without parts stops the infill modifiers: this layer and all layers above it stay as the perimeter modifier
has left them, without bottom, top and internal infill. -/
theorem C64_stops (lib : ClipperLib) (o : Options) (ls ls1 ls2 ls3 : List Layer) (hi : 1 ≤ o.print.insetCount)
    (h1 : perimeterModifier lib o ls = .ok ls1) (h2 : infillModifier lib o ls1 = .ok ls2) (h3 : internalInfillModifier lib o ls2 = .ok ls3)
    (e : Nat) (l : Layer) (he : ls[e]? = some l) (hp : l.parts = []) (j : Nat) (hj : e ≤ j) : ls3[j]? = ls1[j]? := by
  have hlen1 : ls1.length = ls.length := (C61_perimeter lib o _ _ h1).length_eq.symm
  have hel : e < ls1.length := by
    rw [hlen1]
    by_contra hc
    rw [List.getElem?_eq_none (by omega)] at he
    cases he
  obtain ⟨l1, hl1⟩ : ∃ l1, ls1[e]? = some l1 := ⟨_, List.getElem?_eq_getElem hel⟩
  obtain ⟨l0, hl0, _, _, _, hov⟩ := perimeterModifier_get lib o ls ls1 hi h1 e l1 hl1
  have : l0 = l := by simpa [he] using hl0.symm
  subst this
  have hov : l1.overlapPerimeters = .ok [] := by simpa [hp, perimetersOf, ClipperLib.insetLayer] using hov
  have s2 : ∀ j, e ≤ j → ls2[j]? = ls1[j]? := fun j hj =>
    infillLoop_stops lib o _ 0 _ _ h2 (by omega) e l1 hl1 hov (by omega) j hj
  rw [← s2 j hj]
  have hl2 : ls2[e]? = some l1 := by rw [s2 e le_rfl, hl1]
  clear s2 h1 h2 hl1 hel hlen1 he hl0
  induction ls2 generalizing e j ls3 with
  | nil => cases h3; rfl
  | cons m ms ih =>
    simp only [internalInfillModifier, bind_ok] at h3
    obtain ⟨new, hn, h3⟩ := h3
    cases new with
    | none => cases h3; rfl
    | some new =>
      simp only [bind_ok, pure, Except.pure, Except.ok.injEq] at h3
      obtain ⟨rest, hr, rfl⟩ := h3
      cases e with
      | zero =>
        simp only [List.getElem?_cons_zero, Option.some.injEq] at hl2
        subst hl2
        simp only [internalLayer, hov, bind_ok, Except.ok.injEq] at hn
        obtain ⟨_, rfl, hn⟩ := hn
        simp only [if_true, pure, Except.pure, Except.ok.injEq] at hn
        cases hn
      | succ e =>
        cases j with
        | zero => omega
        | succ j => simpa using ih rest hr e j (by omega) (by simpa using hl2)

end Verif
