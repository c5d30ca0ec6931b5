import Verif.Model.Log
import Verif.Spec.Log
import Verif.Props.Flags
import Verif.Props.Whole
import Verif.Props.Cleaned
import Verif.Props.OpenFaces
import Verif.Props.Filled
import Verif.Props.Climb

/-! # C141: the log -/
namespace Verif
open Verif.Go Verif.Model Verif.Spec

theorem andThen_ok {W α β : Type} {a : Act W α} {f : α → Act W β} {w w' : W} {x : α} (h : a w = (w', .ok x)) : a.andThen f w = f x w' := by
  simp only [Act.andThen, h]

theorem andThen_error {W α β : Type} {a : Act W α} {f : α → Act W β} {w w' : W} {e : Fault} (h : a w = (w', .error e)) : a.andThen f w = (w', .error e) := by
  simp only [Act.andThen, h]

theorem quiet_pure {α : Type} (r : Res α) (c : Console) : quiet (pureAct r) c = (c, r) := rfl

theorem say_then {α : Type} (t : Str) (f : Unit → Act Console α) (c : Console) : (say t).andThen f c = f () ⟨c.world, c.out ++ t⟩ := rfl

/-! ## The log changes nothing -/

/-- An action does to the world what the other one does, with the same result, and only appends to the output. -/
def Logs {α : Type} (a : Act Console α) (b : Act World α) : Prop := ∀ c, ((a c).1.world, (a c).2) = b c.world ∧ c.out <+: (a c).1.out

theorem logs_quiet {α : Type} (b : Act World α) : Logs (quiet b) b := fun _ => ⟨rfl, List.prefix_refl _⟩

theorem logs_say {α : Type} (t : Str) {f : Unit → Act Console α} {b : Act World α} (h : Logs (f ()) b) : Logs ((say t).andThen f) b := fun c =>
  ⟨(h ⟨c.world, c.out ++ t⟩).1, (List.prefix_append c.out t).trans (h ⟨c.world, c.out ++ t⟩).2⟩

theorem logs_then {α β : Type} {a : Act Console α} {b : Act World α} {f : α → Act Console β} {g : α → Act World β} (h : Logs a b) (h' : ∀ x, Logs (f x) (g x)) :
    Logs (a.andThen f) (b.andThen g) := by
  intro c
  obtain ⟨e, p⟩ := h c
  unfold Act.andThen
  rw [← e]
  generalize a c = r at p ⊢
  obtain ⟨c', r⟩ := r
  cases r with
  | error e => exact ⟨rfl, p⟩
  | ok x => exact ⟨(h' x c').1, p.trans (h' x c').2⟩

theorem pureAct_bind {W α β : Type} (r : Res α) (f : α → Res β) : (pureAct r : Act W α).andThen (fun x => pureAct (f x)) = pureAct (r >>= f) := by
  funext w
  cases r <;> rfl

theorem logs_optimize (o : Options) (m : Mesh) : Logs (optimizeLogged o m) (pureAct (optimize o m)) := by
  unfold optimizeLogged optimize
  simp only [← pureAct_bind]
  exact logs_then (logs_quiet _) fun s => logs_then (logs_quiet _) fun faces => logs_say _ (logs_then (logs_quiet _) fun _ => logs_then (logs_quiet _) fun _ => logs_quiet _)

theorem logs_modifiers (ms : List (List Layer → Res (List Layer))) : ∀ (names : List Str), names.length = ms.length → ∀ ls,
    Logs (runModifiersLogged (names.zip ms) ls) (pureAct (ms.foldlM (fun ls m => m ls) ls)) := by
  induction ms with
  | nil =>
    intro names h ls
    rw [List.length_eq_zero_iff.1 h]
    exact logs_quiet _
  | cons m ms ih =>
    intro names h ls
    cases names with
    | nil => cases h
    | cons n names =>
      rw [List.zip_cons_cons, runModifiersLogged, List.foldlM_cons, ← pureAct_bind]
      exact logs_then (logs_quiet _) fun ls' => logs_say _ (ih names (Nat.succ.inj h) ls')

theorem renderLayersLogged_eq {W : Type} (o : Options) (max : Int) (rs : List (Renderer W)) (ls : List Layer) : ∀ (k : Nat) (w : W) (out : Str),
    ((renderLayersLogged o max rs k ls w out).1, (renderLayersLogged o max rs k ls w out).2.2) = renderLayers o max rs k ls w ∧
      out <+: (renderLayersLogged o max rs k ls w out).2.1 := by
  induction ls with
  | nil => exact fun k w out => ⟨rfl, List.prefix_refl _⟩
  | cons l ls ih =>
    intro k w out
    unfold renderLayersLogged renderLayers
    have hp : out <+: out ++ "Render layer ".toList ++ formatInt k ++ ['/'] ++ formatInt max ++ ['\n'] := by
      simp only [List.append_assoc]
      exact List.prefix_append _ _
    rcases renderLayer o max k l rs w with ⟨w', f⟩
    cases f with
    | some f => exact ⟨rfl, hp⟩
    | none => exact ⟨(ih (k + 1) w' _).1, hp.trans (ih (k + 1) w' _).2⟩

theorem logs_generate (ext : Externals) (o : Options) (ls : List Layer) : Logs (generateLogged ext.lib o ls) ((standardHandlers ext o).generate ls) := by
  intro c
  unfold generateLogged standardHandlers generateScripts generate
  dsimp only
  obtain ⟨e, p⟩ := renderLayersLogged_eq o (ls.length - 1) ((standardRenderers ext.lib o c.world.patterns).map (Scripts.renderer ext.lib.isCrossingPerimeter)) ls 0
    (newBuilder o.filament.filamentDiameter o.filament.extrusionMultiplier) c.out
  rw [← e]
  generalize renderLayersLogged _ _ _ _ _ _ _ = r at p ⊢
  obtain ⟨w, out, f⟩ := r
  cases f with
  | some f => exact ⟨rfl, p⟩
  | none => exact ⟨rfl, p⟩

theorem logs_process (ext : Externals) (o : Options) (time : Str) : Logs (processLogged ext o time) (goSlice ext o) := by
  unfold processLogged goSlice process
  refine logs_say _ (logs_then (logs_quiet _) fun m => ?_)
  have e : ∀ f : Unit → Act World Unit, (pureAct (describeMesh m) : Act World Unit).andThen f =
      (pureAct (meshMin m) : Act World Vec3).andThen fun _ => (pureAct (meshMax m) : Act World Vec3).andThen fun _ => f () := by
    intro f
    funext w
    simp only [Act.andThen, pureAct, describeMesh, bind, Except.bind]
    cases meshMin m with
    | error e => rfl
    | ok _ => cases meshMax m <;> rfl
  have e' : ∀ om ls, runModifiers om (standardHandlers ext o).modifiers ls = pureAct ((standardModifiers ext.lib ext.tan o).foldlM (fun ls m => m ls) ls) := by
    intro om ls
    funext w
    exact runModifiers_pure om _ ls w
  show Logs _ ((pureAct (describeMesh m) : Act World Unit).andThen _)
  rw [e]
  refine logs_then (logs_quiet _) fun _ => logs_then (logs_quiet _) fun _ => logs_say _ (logs_then (logs_optimize _ _) fun om => logs_say _ (logs_then (logs_quiet _) fun ls => logs_say _ ?_))
  rw [e']
  refine logs_then (logs_modifiers _ _ rfl _) fun ls => logs_say _ (logs_then (logs_quiet _) fun _ => logs_then (logs_generate _ _ _) fun gcode => fun c => ⟨rfl, ?_⟩)
  simp only [List.append_assoc]
  exact List.prefix_append _ _

/-- **C141** The log changes nothing: the files and the result are those of the program without the log. What was printed before stays. -/
theorem C141_same (ext : Externals) (o : Options) (time : Str) (c : Console) :
    ((processLogged ext o time c).1.world, (processLogged ext o time c).2) = goSlice ext o c.world ∧ c.out <+: (processLogged ext o time c).1.out :=
  logs_process ext o time c

/-! ## The number of open faces -/

theorem countP_corners (t : Tri Int) (p : Int → Bool) : t.corners.countP p = (List.range 3).countP fun n => p (ofSide t n) := by
  simp [Tri.corners, List.range_succ, ofSide, List.countP_cons]

theorem openFaces_eq {o : Options} {m : Mesh} {om : OptModel} (h : optimize o m = .ok om) {fs : List (Tri Vec3)} (hfs : om.faces.mapM om.facePoints = .ok fs) :
    openFaces om.faces = openSides fs := by
  have hl := (mapM_ok.1 hfs).length_eq
  unfold openFaces openSides
  congr 1
  apply List.ext_getElem
  · simp [hl]
  intro k hk hk'
  simp only [List.length_map, List.length_zipIdx] at hk hk'
  simp only [List.getElem_map, List.getElem_zipIdx, Nat.zero_add]
  rw [countP_corners]
  apply List.countP_congr
  intro n hn
  simp only [decide_eq_true_eq]
  have hn := List.mem_range.1 hn
  have hf := List.getElem?_eq_getElem hk
  have ht := List.getElem?_eq_getElem hk'
  rcases C50_touching o m om h fs hfs k _ _ hf ht n hn with ⟨h1, h2⟩ | ⟨j, h1, h2, ⟨u, h3, h4⟩, -⟩
  · refine ⟨fun _ q hq hne => h2 q.2 q.1 ?_ hne, fun _ => h1⟩
    rw [List.mem_zipIdx_iff_getElem?] at hq
    simpa using hq
  · refine ⟨fun h => by omega, fun h => absurd h4 (h (u, j) ?_ h2)⟩
    rw [List.mem_zipIdx_iff_getElem?]
    simpa using h3

/-! ## What is logged -/

theorem optimizeLogged_ok {o : Options} {m : Mesh} {om : OptModel} (h : optimize o m = .ok om) (c : Console) :
    optimizeLogged o m c = (⟨c.world, c.out ++ ("Number of open faces: ".toList ++ formatInt (openFaces om.faces) ++ ['\n'])⟩, .ok om) := by
  simp only [optimize, bind_ok, pure, Except.pure, Except.ok.injEq] at h
  obtain ⟨s, hs, fs, hfs, lo, hlo, hi, hhi, rfl⟩ := h
  simp only [optimizeLogged, hs, hfs, hlo, hhi, Act.andThen, quiet, pureAct, say]

theorem optimizeLogged_error {o : Options} {m : Mesh} {lo hi : Vec3} (hlo : meshMin m = .ok lo) (hhi : meshMax m = .ok hi) {e : Fault} (h : optimize o m = .error e) (c : Console) :
    optimizeLogged o m c = (c, .error e) := by
  simp only [optimize, hlo, hhi, bind, Except.bind, pure, Except.pure] at h
  simp only [optimizeLogged, hlo, hhi, Act.andThen, quiet, pureAct, say]
  cases hs : addFaces o.slicing.meldDistance {} m with
  | error e' =>
    rw [hs] at h
    cases h
    rfl
  | ok s =>
    rw [hs] at h
    dsimp only at h ⊢
    cases hf : touchingFaces s.points 0 s.faces with
    | error e' =>
      rw [hf] at h
      cases h
      rfl
    | ok fs =>
      rw [hf] at h
      cases h

/-- The lines for modifiers. -/
def namesText (names : List Str) : Str := names.flatMap fun n => "Modifier ".toList ++ n ++ " applied\n".toList

theorem modifiersLogged_ok (ms : List (List Layer → Res (List Layer))) : ∀ (names : List Str), names.length = ms.length → ∀ (ls ls' : List Layer) (c : Console),
    ms.foldlM (fun ls m => m ls) ls = .ok ls' → runModifiersLogged (names.zip ms) ls c = (⟨c.world, c.out ++ namesText names⟩, .ok ls') := by
  induction ms with
  | nil =>
    intro names h ls ls' c hf
    rw [List.length_eq_zero_iff.1 h]
    cases hf
    simp [namesText, runModifiersLogged, quiet, pureAct]
  | cons m ms ih =>
    intro names h ls ls' c hf
    cases names with
    | nil => cases h
    | cons n names =>
      rw [List.foldlM_cons] at hf
      obtain ⟨l1, h1, h2⟩ := bind_ok.1 hf
      rw [List.zip_cons_cons, runModifiersLogged, andThen_ok (x := l1) (w' := c) (by rw [h1]; rfl)]
      rw [say_then, ih names (Nat.succ.inj h) _ _ _ h2]
      simp [namesText]

theorem modifiersLogged_error (ms : List (List Layer → Res (List Layer))) : ∀ (names : List Str), names.length = ms.length → ∀ (k : Nat) (ls ls' : List Layer) (c : Console)
    (md : List Layer → Res (List Layer)) (e : Fault), (ms.take k).foldlM (fun ls m => m ls) ls = .ok ls' → ms[k]? = some md → md ls' = .error e →
    runModifiersLogged (names.zip ms) ls c = (⟨c.world, c.out ++ namesText (names.take k)⟩, .error e) := by
  induction ms with
  | nil =>
    intro names h k ls ls' c md e hf hk
    cases hk
  | cons m ms ih =>
    intro names h k ls ls' c md e hf hk he
    cases names with
    | nil => cases h
    | cons n names =>
      rw [List.zip_cons_cons, runModifiersLogged]
      cases k with
      | zero =>
        cases hf
        cases hk
        rw [andThen_error (w' := c) (e := e) (by rw [he]; rfl)]
        simp [namesText]
      | succ k =>
        rw [List.take_succ_cons, List.foldlM_cons] at hf
        obtain ⟨l1, h1, h2⟩ := bind_ok.1 hf
        rw [andThen_ok (x := l1) (w' := c) (by rw [h1]; rfl), say_then, ih names (Nat.succ.inj h) k _ _ _ _ _ h2 hk he]
        simp [namesText]

theorem namesText_take (k : Nat) : namesText (modifierNames.take k) = modifiersText k := by
  unfold namesText modifiersText modifierNames
  match k with
  | 0 => rfl
  | 1 => rfl
  | 2 => rfl
  | 3 => rfl
  | 4 => rfl
  | 5 => rfl
  | k + 6 =>
    rw [List.take_of_length_le (by simp), List.take_of_length_le (by simp)]
    rfl

/-- The line for a layer. -/
def layerLine (max : Int) (n : Nat) : Str := "Render layer ".toList ++ (formatInt n ++ ('/' :: (formatInt max ++ ['\n'])))

theorem layerLine_eq (max : Int) (n : Nat) (out : Str) :
    out ++ "Render layer ".toList ++ formatInt n ++ ['/'] ++ formatInt max ++ ['\n'] = out ++ layerLine max n := by
  unfold layerLine
  generalize "Render layer ".toList = a, formatInt n = b, formatInt max = c
  simp

/-- The lines for the layers `n`, `n + 1`, … -/
def linesFrom (max : Int) (n : Nat) : Nat → Str
  | 0 => []
  | k + 1 => layerLine max n ++ linesFrom max (n + 1) k

theorem linesFrom_eq (max : Int) (k : Nat) : ∀ n, linesFrom max n k = (List.range' n k).flatMap (layerLine max) := by
  induction k with
  | zero => intro n; simp only [linesFrom, List.range'_zero, List.flatMap_nil]
  | succ k ih => intro n; simp only [linesFrom, ih, List.range'_succ, List.flatMap_cons]

theorem renderLogged_ok {W : Type} (o : Options) (max : Int) (rs : List (Renderer W)) (ls : List Layer) : ∀ (k : Nat) (w w' : W) (out : Str),
    renderLayers o max rs k ls w = (w', none) → renderLayersLogged o max rs k ls w out = (w', out ++ linesFrom max k ls.length, none) := by
  induction ls with
  | nil =>
    intro k w w' out h
    cases h
    simp only [renderLayersLogged, List.length_nil, linesFrom, List.append_nil]
  | cons l ls ih =>
    intro k w w' out h
    unfold renderLayers at h
    unfold renderLayersLogged
    rw [layerLine_eq]
    generalize renderLayer o max k l rs w = r at h ⊢
    rcases r with ⟨w1, f⟩
    cases f with
    | some f => cases h
    | none =>
      dsimp only at h ⊢
      rw [ih _ _ _ _ h]
      simp only [List.length_cons, linesFrom, List.append_assoc]

theorem renderLogged_error {W : Type} (o : Options) (max : Int) (rs : List (Renderer W)) (ls : List Layer) : ∀ (n k : Nat) (w w' : W) (out : Str) (l : Layer) (e : Fault),
    renderLayers o max rs k (ls.take n) w = (w', none) → ls[n]? = some l → (renderLayer o max (k + n) l rs w').2 = some e →
    ∃ w2, renderLayersLogged o max rs k ls w out = (w2, out ++ linesFrom max k (n + 1), some e) := by
  induction ls with
  | nil =>
    intro n k w w' out l e h hl
    cases hl
  | cons l ls ih =>
    intro n k w w' out l' e h hl he
    unfold renderLayersLogged
    rw [layerLine_eq]
    cases n with
    | zero =>
      cases h
      cases hl
      rw [Nat.add_zero] at he
      generalize renderLayer o max k l rs w = r at he ⊢
      rcases r with ⟨w1, f⟩
      cases he
      exact ⟨w1, by simp only [linesFrom, List.append_nil]⟩
    | succ n =>
      rw [List.take_succ_cons] at h
      unfold renderLayers at h
      generalize renderLayer o max k l rs w = r at h ⊢
      rcases r with ⟨w1, f⟩
      cases f with
      | some f => cases h
      | none =>
        dsimp only at h ⊢
        obtain ⟨w2, h2⟩ := ih n (k + 1) w1 w' (out ++ layerLine max k) l' e h hl (by rw [show k + 1 + n = k + (n + 1) by omega]; exact he)
        refine ⟨w2, ?_⟩
        rw [h2]
        simp only [linesFrom, List.append_assoc]

/-! ### From stage to stage -/

theorem load_eq (path : Str) : "Load model ".toList ++ path ++ ['\n'] = loadText path := rfl

theorem loaded_eq (n : Int) (a b : Vec3) :
    "Model loaded.\nFace count: ".toList ++ formatInt n ++ "\nSize: min: ".toList ++ vec3String a ++ " max ".toList ++ vec3String b ++ ['\n'] =
      "Model loaded.\n".toList ++ ("Face count: ".toList ++ formatInt n ++ "\n".toList) ++ ("Size: min: ".toList ++ vecText a ++ " max ".toList ++ vecText b ++ "\n".toList) := by
  have e : ∀ v, vec3String v = vecText v := by
    intro v
    unfold vec3String vecText micrometerString
    simp
  rw [e, e, show "Model loaded.\nFace count: ".toList = "Model loaded.\n".toList ++ "Face count: ".toList by rfl, show "\nSize: min: ".toList = "\n".toList ++ "Size: min: ".toList by rfl,
    show ['\n'] = "\n".toList by rfl]
  generalize "Model loaded.\n".toList = x1, "Face count: ".toList = x2, "\n".toList = x3, "Size: min: ".toList = x4, " max ".toList = x5
  simp only [List.append_assoc]

/-- The process after the layers are modified and the patterns are set up. -/
def fromPatterns (ext : Externals) (o : Options) (time : Str) (layers : List Layer) : Act Console Unit :=
  (generateLogged ext.lib o layers).andThen fun gcode => fun c =>
    ({ world := (writeFile gcode (outputPath o.goSlice) c.world).1, out := c.out ++ "full processing time: ".toList ++ time ++ ['\n'] },
      (writeFile gcode (outputPath o.goSlice) c.world).2)

/-- The process after the layers are modified. -/
def fromModified (ext : Externals) (o : Options) (time : Str) (om : OptModel) (layers : List Layer) : Act Console Unit :=
  (say ("Layers modified ".toList ++ formatInt layers.length ++ ['\n'])).andThen fun _ =>
  (quiet ((standardHandlers ext o).generatorInit om)).andThen fun _ => fromPatterns ext o time layers

/-- The process after the model is sliced. -/
def fromSliced (ext : Externals) (o : Options) (time : Str) (om : OptModel) (layers : List Layer) : Act Console Unit :=
  (say ("Model sliced to ".toList ++ formatInt layers.length ++ " layers\n".toList)).andThen fun _ =>
  (runModifiersLogged (modifierNames.zip (standardModifiers ext.lib ext.tan o)) layers).andThen (fromModified ext o time om)

/-- The process after the model is optimized. -/
def fromOptimized (ext : Externals) (o : Options) (time : Str) (om : OptModel) : Act Console Unit :=
  (say "Model optimized\n".toList).andThen fun _ => (quiet (pureAct (slice ext.lib o om))).andThen (fromSliced ext o time om)

/-- The process after the model is read and described. -/
def fromLoaded (ext : Externals) (o : Options) (time : Str) (model : Mesh) (min max : Vec3) : Act Console Unit :=
  (say ("Model loaded.\nFace count: ".toList ++ formatInt model.length ++ "\nSize: min: ".toList ++ vec3String min ++ " max ".toList ++ vec3String max ++ ['\n'])).andThen fun _ =>
  (optimizeLogged o model).andThen (fromOptimized ext o time)

theorem process_stages (ext : Externals) (o : Options) (time : Str) : processLogged ext o time =
    (say ("Load model ".toList ++ o.goSlice.inputFilePath ++ ['\n'])).andThen fun _ =>
    (quiet (readModel ext.stl o.goSlice.inputFilePath)).andThen fun model =>
    (quiet (pureAct (meshMin model))).andThen fun min => (quiet (pureAct (meshMax model))).andThen fun max => fromLoaded ext o time model min max := rfl

theorem box_found {m : Mesh} {lo hi : Vec3} (h : IsBox (vertices m) lo hi) : meshMin m = .ok lo ∧ meshMax m = .ok hi := by
  cases m with
  | nil =>
    obtain ⟨p, hp, -⟩ := h.reached.1
    simp [vertices] at hp
  | cons f m =>
    obtain ⟨lo', h1⟩ : ∃ lo', meshMin (f :: m) = .ok lo' := ⟨_, by simp only [meshMin, index, bind, Except.bind, pure, Except.pure]; rfl⟩
    obtain ⟨hi', h2⟩ : ∃ hi', meshMax (f :: m) = .ok hi' := ⟨_, by simp only [meshMax, index, bind, Except.bind, pure, Except.pure]; rfl⟩
    obtain ⟨rfl, rfl⟩ := isBox_unique h (mesh_box h1 h2)
    exact ⟨h1, h2⟩

section
variable {ext : Externals} {o : Options} {time : Str} {c : Console}

theorem to_loaded {content : Str} (hc : c.world.files o.goSlice.inputFilePath = some content) {lo hi : Vec3}
    (hb : IsBox (vertices ((ext.stl content).map stlTriangleToFace)) lo hi) :
    processLogged ext o time c = ((optimizeLogged o ((ext.stl content).map stlTriangleToFace)).andThen (fromOptimized ext o time))
      ⟨c.world, c.out ++ loadText o.goSlice.inputFilePath ++ loadedText (ext.stl content).length lo hi⟩ := by
  rw [process_stages, say_then, andThen_ok (x := (ext.stl content).map stlTriangleToFace) (w' := ⟨c.world, c.out ++ loadText o.goSlice.inputFilePath⟩)
    (by simp only [quiet, readModel, hc, load_eq])]
  rw [andThen_ok (x := lo) (w' := ⟨c.world, c.out ++ loadText o.goSlice.inputFilePath⟩) (by rw [(box_found hb).1]; rfl),
    andThen_ok (x := hi) (w' := ⟨c.world, c.out ++ loadText o.goSlice.inputFilePath⟩) (by rw [(box_found hb).2]; rfl), fromLoaded, say_then, loaded_eq, List.length_map]
  rfl

theorem to_optimized {m : Mesh} {om : OptModel} (h : optimize o m = .ok om) {fs : List (Tri Vec3)} (hfs : om.faces.mapM om.facePoints = .ok fs) :
    (optimizeLogged o m).andThen (fromOptimized ext o time) c = ((quiet (pureAct (slice ext.lib o om))).andThen (fromSliced ext o time om)) ⟨c.world, c.out ++ optimizedText (openSides fs)⟩ := by
  rw [andThen_ok (optimizeLogged_ok h c), fromOptimized, say_then, openFaces_eq h hfs]
  exact congrArg (fun out => ((quiet (pureAct (slice ext.lib o om))).andThen (fromSliced ext o time om)) ⟨c.world, out⟩) (List.append_assoc c.out _ _)

theorem to_modifiers {om : OptModel} {sliced : List Layer} (h : slice ext.lib o om = .ok sliced) :
    (quiet (pureAct (slice ext.lib o om))).andThen (fromSliced ext o time om) c =
      ((runModifiersLogged (modifierNames.zip (standardModifiers ext.lib ext.tan o)) sliced).andThen (fromModified ext o time om)) ⟨c.world, c.out ++ slicedText sliced.length⟩ := by
  rw [andThen_ok (x := sliced) (w' := c) (by rw [h]; rfl), fromSliced, say_then]
  rfl

theorem to_init {om : OptModel} {sliced layers : List Layer} (h : (standardModifiers ext.lib ext.tan o).foldlM (fun ls m => m ls) sliced = .ok layers) :
    (runModifiersLogged (modifierNames.zip (standardModifiers ext.lib ext.tan o)) sliced).andThen (fromModified ext o time om) c =
      ((quiet ((standardHandlers ext o).generatorInit om)).andThen fun _ => fromPatterns ext o time layers)
        ⟨c.world, c.out ++ modifiersText 6 ++ modifiedText sliced.length⟩ := by
  have hl : layers.length = sliced.length := by
    have := congrArg List.length (C61_parts ext.lib ext.tan o _ (fun _ h => h) sliced layers h)
    simpa using this
  rw [andThen_ok (modifiersLogged_ok (standardModifiers ext.lib ext.tan o) modifierNames rfl sliced layers c h), fromModified, say_then, ← namesText_take 6, hl]
  rfl

theorem to_generate {om : OptModel} {layers : List Layer} {pt : Patterns} (h : initPatterns ext.lib ext.trig o om = .ok pt) :
    (quiet ((standardHandlers ext o).generatorInit om)).andThen (fun _ => fromPatterns ext o time layers) c = fromPatterns ext o time layers ⟨{ c.world with patterns := pt }, c.out⟩ := by
  rw [andThen_ok (x := ()) (w' := ⟨{ c.world with patterns := pt }, c.out⟩) (by simp only [quiet, standardHandlers, h])]

end

theorem modified_length {ext : Externals} {o : Options} {sliced layers : List Layer}
    (h : (standardModifiers ext.lib ext.tan o).foldlM (fun ls m => m ls) sliced = .ok layers) : layers.length = sliced.length := by
  have := congrArg List.length (C61_parts ext.lib ext.tan o _ (fun _ h => h) sliced layers h)
  simpa using this

theorem linesFrom_text (layers k : Nat) : linesFrom ((layers : Int) - 1) 0 k = layersText layers k := by
  rw [linesFrom_eq, ← List.range_eq_range']
  unfold layersText
  refine congrArg (fun f => (List.range k).flatMap f) (funext fun n => ?_)
  have := layerLine_eq ((layers : Int) - 1) n []
  rw [List.nil_append, List.nil_append] at this
  exact this.symm

/-! ### The theorems -/

section
variable (ext : Externals) (o : Options) (time : Str) (c : Console)

/-- **C141** If the file cannot be read or has no triangles, only the first line is logged. -/
theorem C141_unread (h : ∀ content, c.world.files o.goSlice.inputFilePath = some content → ext.stl content = []) :
    (processLogged ext o time c).1.out = c.out ++ loadText o.goSlice.inputFilePath := by
  rw [process_stages, say_then, load_eq]
  cases hc : c.world.files o.goSlice.inputFilePath with
  | none => rw [andThen_error (w' := ⟨c.world, c.out ++ loadText o.goSlice.inputFilePath⟩) (e := .err "file does not exist") (by simp only [quiet, readModel, hc])]
  | some content =>
    rw [andThen_ok (x := []) (w' := ⟨c.world, c.out ++ loadText o.goSlice.inputFilePath⟩) (by simp only [quiet, readModel, hc, h content hc, List.map_nil])]
    rfl

variable {content : Str} (hc : c.world.files o.goSlice.inputFilePath = some content) {lo hi : Vec3}
  (hb : IsBox (vertices ((ext.stl content).map stlTriangleToFace)) lo hi)
include hc hb

/-- **C141** If the optimizer fails, the last lines are those about the model which was read. -/
theorem C141_unoptimized {e : Fault} (h : optimize o ((ext.stl content).map stlTriangleToFace) = .error e) :
    (processLogged ext o time c).1.out = c.out ++ loadText o.goSlice.inputFilePath ++ loadedText (ext.stl content).length lo hi := by
  rw [to_loaded hc hb, andThen_error (optimizeLogged_error (box_found hb).1 (box_found hb).2 h _)]

variable {om : OptModel} (hom : optimize o ((ext.stl content).map stlTriangleToFace) = .ok om) {fs : List (Tri Vec3)} (hfs : om.faces.mapM om.facePoints = .ok fs)
include hom hfs

/-- **C141** If the slicer fails, the last lines are those about the optimized model. -/
theorem C141_unsliced {e : Fault} (h : slice ext.lib o om = .error e) :
    (processLogged ext o time c).1.out =
      c.out ++ loadText o.goSlice.inputFilePath ++ loadedText (ext.stl content).length lo hi ++ optimizedText (openSides fs) := by
  rw [to_loaded hc hb, to_optimized hom hfs, andThen_error (quiet_pure _ _ |>.trans (by rw [h]))]

variable {sliced : List Layer} (hs : slice ext.lib o om = .ok sliced)
include hs

/-- **C141** If modifier number `k` fails, the last lines are those about the modifiers before it. -/
theorem C141_unmodified {k : Nat} {ls : List Layer} {md : List Layer → Res (List Layer)} {e : Fault}
    (h1 : ((standardModifiers ext.lib ext.tan o).take k).foldlM (fun ls m => m ls) sliced = .ok ls) (h2 : (standardModifiers ext.lib ext.tan o)[k]? = some md) (h3 : md ls = .error e) :
    (processLogged ext o time c).1.out = c.out ++ loadText o.goSlice.inputFilePath ++ loadedText (ext.stl content).length lo hi ++ optimizedText (openSides fs) ++
      slicedText sliced.length ++ modifiersText k := by
  rw [to_loaded hc hb, to_optimized hom hfs, to_modifiers hs, andThen_error (modifiersLogged_error _ modifierNames rfl k _ _ _ _ _ h1 h2 h3), namesText_take]

variable {layers : List Layer} (hl : (standardModifiers ext.lib ext.tan o).foldlM (fun ls m => m ls) sliced = .ok layers)
include hl

/-- **C141** If the patterns cannot be set up, the last line is that about all modifiers. -/
theorem C141_unprepared {e : Fault} (h : initPatterns ext.lib ext.trig o om = .error e) :
    (processLogged ext o time c).1.out = c.out ++ loadText o.goSlice.inputFilePath ++ loadedText (ext.stl content).length lo hi ++ optimizedText (openSides fs) ++
      slicedText sliced.length ++ modifiersText 6 ++ modifiedText sliced.length := by
  rw [to_loaded hc hb, to_optimized hom hfs, to_modifiers hs, to_init hl, andThen_error (w' := _) (e := e) (by simp only [quiet, standardHandlers, h]; rfl)]

variable {pt : Patterns} (hpt : initPatterns ext.lib ext.trig o om = .ok pt)
include hpt

/-- **C141** If layer number `k` cannot be rendered, the last line is that about this layer. -/
theorem C141_unrendered {k : Nat} {l : Layer} {g : Builder} {e : Fault}
    (h1 : renderLayers o ((layers.length : Int) - 1) ((standardRenderers ext.lib o pt).map (Scripts.renderer ext.lib.isCrossingPerimeter)) 0 (layers.take k)
      (newBuilder o.filament.filamentDiameter o.filament.extrusionMultiplier) = (g, none)) (h2 : layers[k]? = some l)
    (h3 : (renderLayer o ((layers.length : Int) - 1) k l ((standardRenderers ext.lib o pt).map (Scripts.renderer ext.lib.isCrossingPerimeter)) g).2 = some e) :
    (processLogged ext o time c).2 = .error e ∧
    (processLogged ext o time c).1.out = c.out ++ loadText o.goSlice.inputFilePath ++ loadedText (ext.stl content).length lo hi ++ optimizedText (openSides fs) ++
      slicedText sliced.length ++ modifiersText 6 ++ modifiedText sliced.length ++ layersText sliced.length (k + 1) := by
  have hlen := modified_length hl
  rw [to_loaded hc hb, to_optimized hom hfs, to_modifiers hs, to_init hl, to_generate hpt]
  generalize c.out ++ loadText o.goSlice.inputFilePath ++ loadedText (ext.stl content).length lo hi ++ optimizedText (openSides fs) ++
      slicedText sliced.length ++ modifiersText 6 ++ modifiedText sliced.length = out
  obtain ⟨w2, h⟩ := renderLogged_error o ((layers.length : Int) - 1) ((standardRenderers ext.lib o pt).map (Scripts.renderer ext.lib.isCrossingPerimeter)) layers k 0
    (newBuilder o.filament.filamentDiameter o.filament.extrusionMultiplier) g out l e h1 h2 (by rw [Nat.zero_add]; exact h3)
  rw [fromPatterns, andThen_error (w' := ⟨{ c.world with patterns := pt }, out ++ linesFrom ((layers.length : Int) - 1) 0 (k + 1)⟩) (e := e) (by simp only [generateLogged, h])]
  refine ⟨rfl, ?_⟩
  rw [linesFrom_text, hlen]

/-- **C141** If all layers are rendered, there is one line for each layer, and at the end that about the time. This does not depend on whether the file can be written. -/
theorem C141_rendered {t : Str} {g0 : Builder} (h : (generateScripts ext.lib.isCrossingPerimeter o (standardRenderers ext.lib o pt) layers g0).2 = (t, none)) :
    (processLogged ext o time c).1.out = c.out ++ loadText o.goSlice.inputFilePath ++ loadedText (ext.stl content).length lo hi ++ optimizedText (openSides fs) ++
      slicedText sliced.length ++ modifiersText 6 ++ modifiedText sliced.length ++ layersText sliced.length sliced.length ++ timeText time := by
  have hlen := modified_length hl
  rw [to_loaded hc hb, to_optimized hom hfs, to_modifiers hs, to_init hl, to_generate hpt]
  generalize c.out ++ loadText o.goSlice.inputFilePath ++ loadedText (ext.stl content).length lo hi ++ optimizedText (openSides fs) ++
      slicedText sliced.length ++ modifiersText 6 ++ modifiedText sliced.length = out
  unfold generateScripts generate at h
  dsimp only at h
  generalize hr : renderLayers o ((layers.length : Int) - 1) ((standardRenderers ext.lib o pt).map (Scripts.renderer ext.lib.isCrossingPerimeter)) 0 layers
    (newBuilder o.filament.filamentDiameter o.filament.extrusionMultiplier) = r at h
  rcases r with ⟨g, f⟩
  cases f with
  | some f => cases h
  | none =>
    have h2 := renderLogged_ok o ((layers.length : Int) - 1) ((standardRenderers ext.lib o pt).map (Scripts.renderer ext.lib.isCrossingPerimeter)) layers 0
      (newBuilder o.filament.filamentDiameter o.filament.extrusionMultiplier) g out hr
    rw [fromPatterns, andThen_ok (x := g.buf) (w' := ⟨{ c.world with patterns := pt }, out ++ linesFrom ((layers.length : Int) - 1) 0 layers.length⟩) (by simp only [generateLogged, h2])]
    rw [linesFrom_text, hlen]
    have e : ∀ x : Str, x ++ "full processing time: ".toList ++ time ++ ['\n'] = x ++ timeText time := by
      intro x
      unfold timeText
      rw [show "\n".toList = ['\n'] by rfl]
      generalize "full processing time: ".toList = y
      simp only [List.append_assoc]
    exact e _

end

/-! ## The command -/

/-- **C141** The command with its output does to the files what the command does, and has the same status. -/
theorem C141_main (ext : Externals) (cl : CommandLine) (version time usage : Str) (w : World) :
    ((mainPrinted ext cl version time usage w).1.world, (mainPrinted ext cl version time usage w).2) = main ext cl w := by
  unfold mainPrinted main
  cases parseFlags cl with
  | none => rfl
  | some o =>
    dsimp only
    split
    · rfl
    · split
      · rfl
      · have h := (C141_same ext o time ⟨w, []⟩).1
        dsimp only at h
        rw [← h]
        generalize processLogged ext o time ⟨w, []⟩ = r
        obtain ⟨c, r⟩ := r
        cases r <;> rfl

/-- **C141** What the command prints if it does not process a model: the usage for wrong flags, the version, and nothing (to the standard output) without a path. -/
theorem C141_unprocessed (ext : Externals) (cl : CommandLine) (version time usage : Str) (w : World) :
    (parseFlags cl = none → (mainPrinted ext cl version time usage w).1.out = usage) ∧
    ∀ o, parseFlags cl = some o →
      (optionOf o "version" = some (.bool true) → (mainPrinted ext cl version time usage w).1.out = "GoSlice ".toList ++ version) ∧
      (optionOf o "version" = some (.bool false) → cl.args = [] → (mainPrinted ext cl version time usage w).1.out = []) := by
  refine ⟨fun h => ?_, fun o h => ⟨fun hv => ?_, fun hv ha => ?_⟩⟩
  · unfold mainPrinted
    rw [h]
  · have hv : o.goSlice.printVersion = true := OptionValue.bool.inj (Option.some.inj hv)
    unfold mainPrinted
    rw [h]
    simp only [hv, if_true]
  · have hv : o.goSlice.printVersion = false := OptionValue.bool.inj (Option.some.inj hv)
    have hp := (C93_options cl o h).2.2
    rw [ha] at hp
    unfold mainPrinted
    rw [h]
    simp only [hv, show o.goSlice.inputFilePath = [] from hp, if_true, if_false, Bool.false_eq_true]

theorem mainPrinted_process (ext : Externals) (cl : CommandLine) (version time usage : Str) (w : World) {o : Options} (h : parseFlags cl = some o)
    (hv : optionOf o "version" = some (.bool false)) {path : Str} (ha : cl.args.head? = some path) (hpath : path ≠ []) :
    o.goSlice.inputFilePath = path ∧ (mainPrinted ext cl version time usage w).1.out = (processLogged ext o time ⟨w, []⟩).1.out ++ resultText (goSlice ext o w).2 := by
  have hv : o.goSlice.printVersion = false := OptionValue.bool.inj (Option.some.inj hv)
  have hp := (C93_options cl o h).2.2
  rw [List.headD_eq_head?_getD, ha] at hp
  refine ⟨hp, ?_⟩
  unfold mainPrinted
  rw [h]
  have hne : o.goSlice.inputFilePath ≠ [] := by rw [hp]; exact hpath
  simp only [hv, hne, if_false, Bool.false_eq_true]
  rw [← congrArg Prod.snd (C141_same ext o time ⟨w, []⟩).1]

/-- **C141** What the command prints if it processes a model: the log, and, after an error, the line which tells it. After a panic, nothing follows. -/
theorem C141_printed (ext : Externals) (cl : CommandLine) (version time usage : Str) (w : World) (o : Options) (h : parseFlags cl = some o)
    (hv : optionOf o "version" = some (.bool false)) (path : Str) (ha : cl.args.head? = some path) (hpath : path ≠ []) :
    ((main ext cl w).2 = 0 → (mainPrinted ext cl version time usage w).1.out = (processLogged ext o time ⟨w, []⟩).1.out) ∧
    (∀ msg, (goSlice ext o w).2 = .error (.err msg) →
      (mainPrinted ext cl version time usage w).1.out = (processLogged ext o time ⟨w, []⟩).1.out ++ "error while processing file: ".toList ++ msg.toList ++ "\n".toList) ∧
    ∀ msg, (goSlice ext o w).2 = .error (.panic msg) → (mainPrinted ext cl version time usage w).1.out = (processLogged ext o time ⟨w, []⟩).1.out := by
  obtain ⟨hp, e⟩ := mainPrinted_process ext cl version time usage w h hv ha hpath
  rw [e]
  refine ⟨fun h0 => ?_, fun msg hm => ?_, fun msg hm => ?_⟩
  · have := (C92_failure ext cl w o h hv path ha hpath).1
    rw [h0] at this
    have hok : (goSlice ext o w).2 = .ok () := by
      by_contra hne
      rw [if_neg hne] at this
      cases this
    rw [hok]
    exact List.append_nil _
  · rw [hm]
    unfold resultText
    rw [show ['\n'] = "\n".toList by rfl]
    generalize "error while processing file: ".toList = x, "\n".toList = y
    simp only [List.append_assoc]
  · rw [hm]
    exact List.append_nil _

/-- **C141** All that a successful run of the command prints. -/
theorem C141_success (ext : Externals) (cl : CommandLine) (version time usage : Str) (w : World) (o : Options) (h : parseFlags cl = some o)
    (hv : optionOf o "version" = some (.bool false)) (h0 : (main ext cl w).2 = 0) :
    ∃ path content lo hi om fs sliced, cl.args.head? = some path ∧ w.files path = some content ∧ IsBox (vertices ((ext.stl content).map stlTriangleToFace)) lo hi ∧
      optimize o ((ext.stl content).map stlTriangleToFace) = .ok om ∧ om.faces.mapM om.facePoints = .ok fs ∧ slice ext.lib o om = .ok sliced ∧
      (mainPrinted ext cl version time usage w).1.out = loadText path ++ loadedText (ext.stl content).length lo hi ++ optimizedText (openSides fs) ++
        slicedText sliced.length ++ modifiersText 6 ++ modifiedText sliced.length ++ layersText sliced.length sliced.length ++ timeText time := by
  obtain ⟨path, content, t, ha, hpath, hc, ht, -⟩ := C92_success ext cl w o h hv h0
  obtain ⟨om, sliced, layers, pt, g0, h1, h2, h3, h4, h5⟩ := gcodeOf_steps ht
  obtain ⟨fs, -, lo, hi, hfs, hb, -⟩ := C48_faces o _ om h1
  refine ⟨path, content, lo, hi, om, fs, sliced, ha, hc, hb, h1, hfs, h2, ?_⟩
  obtain ⟨hp, -⟩ := mainPrinted_process ext cl version time usage w h hv ha hpath
  rw [(C141_printed ext cl version time usage w o h hv path ha hpath).1 h0,
    C141_rendered ext o time ⟨w, []⟩ (by rw [hp]; exact hc) hb h1 hfs h2 h3 h4 h5, hp]
  rfl

/-! ## Examples -/

/-- Without arguments nothing is printed to the standard output. -/
example (ext : Externals) (w : World) : (mainPrinted ext {} [] [] [] w).1.out = [] := ((C141_unprocessed ext {} [] [] [] w).2 {} rfl).2 rfl rfl

/-- The version. -/
example (ext : Externals) (w : World) : (mainPrinted ext { settings := [("version".toList, "true".toList)] } "v1".toList [] [] w).1.out = "GoSlice v1".toList :=
  ((C141_unprocessed ext { settings := [("version".toList, "true".toList)] } "v1".toList [] [] w).2 _ rfl).1 rfl

/-- A missing file. -/
example (ext : Externals) : (mainPrinted ext { args := ["m.stl".toList] } [] [] [] { files := fun _ => none, space := 0 }).1.out =
    "Load model m.stl\nerror while processing file: file does not exist\n".toList := by
  have h := (C141_printed ext { args := ["m.stl".toList] } [] [] [] { files := fun _ => none, space := 0 } _ (parseFlags_path _) rfl "m.stl".toList rfl (by decide)).2.1
    "file does not exist" rfl
  rw [C141_unread ext _ [] ⟨{ files := fun _ => none, space := 0 }, []⟩ (fun content h => by cases h)] at h
  exact h

/-- All that is printed for a tetrahedron with default options. -/
example : ∃ w : World, (mainPrinted cornerExt { args := ["m.stl".toList] } [] "1s".toList [] w).1.out =
    ("Load model m.stl\nModel loaded.\nFace count: 4\nSize: min: 0_0_0 max 1000_1000_1000\nNumber of open faces: 0\nModel optimized\nModel sliced to 5 layers\n" ++
    "Modifier Perimeter applied\nModifier Infill applied\nModifier InternalInfill applied\nModifier Brim applied\nModifier SupportDetector applied\n" ++
    "Modifier SupportGenerator applied\nLayers modified 5\nRender layer 0/4\nRender layer 1/4\nRender layer 2/4\nRender layer 3/4\nRender layer 4/4\n" ++
    "full processing time: 1s\n").toList := by
  have hm : cornerMesh = (cornerExt.stl []).map stlTriangleToFace := by decide +kernel
  have hsep : Separated 30 cornerMesh := by unfold Separated; decide +kernel
  have key := fun n : Nat => C95_default cornerExt "m.stl".toList [] { files := fun _ => some [], space := n } (by decide) (fun _ _ _ => rfl) trivial_open rfl cornerMesh hm
    (by decide) (by decide) hsep corner_noGap
  obtain ⟨t, ht, -⟩ := key 0
  obtain ⟨t', ht', h⟩ := key t.length
  rw [ht] at ht'
  cases ht'
  refine ⟨{ files := fun _ => some [], space := t.length }, ?_⟩
  obtain ⟨path, content, lo, hi, om, fs, sliced, ha, hc, hb, h1, hfs, h2, e⟩ :=
    C141_success cornerExt { args := ["m.stl".toList] } [] "1s".toList [] _ _ (parseFlags_path _) rfl (h rfl le_rfl).1
  cases ha
  cases hc
  rw [← hm] at hb h1
  obtain ⟨rfl, rfl⟩ : lo = ⟨0, 0, 0⟩ ∧ hi = ⟨1000, 1000, 1000⟩ := isBox_unique hb ⟨by decide +kernel, by decide +kernel⟩
  have hopen : openSides fs = 0 := by
    rw [openSides_optimized h1 hsep (by decide) (by decide +kernel) hfs]
    exact C141_closed _ (by decide +kernel)
  obtain ⟨s, lo, hi, -, -, hb', hsize, -⟩ := optimize_faces h1
  obtain ⟨rfl, rfl⟩ := isBox_unique hb hb'
  have hcount := sliced_count (show (0 : Int) < 200 by decide) h2
  have hl : sliced.length = 5 := by
    rw [show om.size.z = 1000 by rw [hsize]; rfl] at hcount
    have : ((1000 : Int) - 200).tdiv 200 = 4 := by decide
    have e2 : ((sliced.length : Nat) : Int) = (5 : Int) := by
      rw [hcount]
      decide
    omega
  rw [e, hopen, hl]
  decide +kernel

/-- The lines logged for the tetrahedron, with a library and options. -/
def cornerLog (lib : ClipperLib) (o : Options) : Str :=
  (processLogged { cornerExt with lib := lib } { o with goSlice := { inputFilePath := ['m'] } } ['1', 's'] ⟨{ files := fun _ => some [], space := 10 }, []⟩).1.out

/-- A library which cannot cut the lines of the infill. -/
def failLib : ClipperLib where
  execute := fun _ _ _ => some [⟨[⟨0, 0⟩, ⟨1000, 0⟩, ⟨1000, 1000⟩], []⟩]
  executeOpen := fun _ _ _ => none
  offset := fun _ _ => [⟨[⟨0, 0⟩, ⟨1000, 0⟩, ⟨1000, 1000⟩], []⟩]
  hull := fun p => p

/-- The premises of `C141_unoptimized`, `C141_unsliced`, `C141_unmodified`, `C141_unprepared` and `C141_unrendered` can be met: each of these runs ends at this stage. -/
example : cornerLog trivialLib { slicing := { meldDistance := 0 } } = loadText ['m'] ++ loadedText 4 ⟨0, 0, 0⟩ ⟨1000, 1000, 1000⟩ := by decide +kernel
example : cornerLog trivialLib { print := { layerThickness := 0 } } = loadText ['m'] ++ loadedText 4 ⟨0, 0, 0⟩ ⟨1000, 1000, 1000⟩ ++ optimizedText 0 := by decide +kernel
example : cornerLog trivialLib { print := { initialLayerThickness := 1200, brimSkirt := { brimCount := 1 } } } =
    loadText ['m'] ++ loadedText 4 ⟨0, 0, 0⟩ ⟨1000, 1000, 1000⟩ ++ optimizedText 0 ++ slicedText 0 ++ modifiersText 3 := by decide +kernel
example : cornerLog trivialLib { printer := { extrusionWidth := 0 } } =
    loadText ['m'] ++ loadedText 4 ⟨0, 0, 0⟩ ⟨1000, 1000, 1000⟩ ++ optimizedText 0 ++ slicedText 5 ++ modifiersText 6 ++ modifiedText 5 := by decide +kernel
example : cornerLog failLib {} =
    loadText ['m'] ++ loadedText 4 ⟨0, 0, 0⟩ ⟨1000, 1000, 1000⟩ ++ optimizedText 0 ++ slicedText 5 ++ modifiersText 6 ++ modifiedText 5 ++ layersText 5 1 := by decide +kernel

end Verif
