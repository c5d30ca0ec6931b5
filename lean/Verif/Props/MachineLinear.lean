import Verif.Model.MachineLinear
import Verif.Props.Bounds
import Verif.Props.MachineModifiers
import Verif.Props.Patterns
import Verif.Props.PrintAreaFill
import Verif.Props.Rotation

/-! # The infill patterns with int64 arithmetic (C127) -/
namespace Verif
open Verif.Go Verif.Model Verif.Spec

theorem bind_congr_yields {α β : Type} {P : α → Prop} {x : Res α} {f g : α → Res β} (hx : Yields x P) (h : ∀ a, P a → f a = g a) : (x >>= f) = (x >>= g) := by
  cases x with
  | error e => rfl
  | ok a => exact h a (hx a rfl)

theorem size_le_pow {b : Int} {p : Pt} (hp : PtIn b p) (hb : b ≤ 2 ^ 29 + 2 ^ 27) : 0 ≤ p.size ∧ p.size ≤ 2 ^ 30 := by
  refine ⟨size_nonneg p, ?_⟩
  have h1 := mul_self_bounds (hp.1.trans hb)
  have h2 := mul_self_bounds (hp.2.trans hb)
  have hs : |(p.size2 : ℚ)| ≤ 2 ^ 60 := by
    have : |p.size2| ≤ 2 ^ 60 := by unfold Pt.size2; rw [abs_le]; omega
    exact_mod_cast this
  have hr := (abs_le.1 (r64_le_pow hs)).2
  have hq : fsqrt64 (r64 (p.size2 : ℚ)) ≤ 2 ^ 30 := by
    rw [fsqrt64_eq]
    have h : Real.sqrt ((r64 (p.size2 : ℚ) : ℚ) : ℝ) ≤ ((2 ^ 30 : ℚ) : ℝ) := by
      rw [Real.sqrt_le_left (by norm_num)]
      have : ((r64 (p.size2 : ℚ) : ℚ) : ℝ) ≤ ((2 ^ 60 : ℚ) : ℝ) := Rat.cast_le.2 hr
      push_cast at this ⊢
      linarith
    have := rnd_mono 53 (by norm_num) (-1074) h
    rw [rnd_of_repr 53 (by norm_num) (-1074) (2 ^ 30 : ℚ) ⟨1, 30, by norm_num, by norm_num, by norm_num⟩] at this
    exact this
  unfold Pt.size truncZ
  split
  · have := Int.floor_le (fsqrt64 (r64 (p.size2 : ℚ)))
    have h : ((⌊fsqrt64 (r64 (p.size2 : ℚ))⌋ : Int) : ℚ) ≤ ((2 ^ 30 : Int) : ℚ) := by push_cast; linarith
    exact_mod_cast h
  · rename_i hn
    have : (0 : Int) ≤ ⌊-fsqrt64 (r64 (p.size2 : ℚ))⌋ := Int.floor_nonneg.2 (by linarith [not_le.1 hn])
    omega

theorem shorterM_le {b : Int} {p : Pt} (hp : PtIn b p) (hb : b < 2 ^ 30) {l : Int} (hl : |l| ≤ 2 ^ 30) : shorterThanOrEqualM p l = p.shorterThanOrEqual l := by
  have h := mul_self_bounds hl
  have h1 := mul_self_bounds (hp.1.trans hb.le)
  have h2 := mul_self_bounds (hp.2.trans hb.le)
  rw [abs_le] at hl
  unfold shorterThanOrEqualM Pt.shorterThanOrEqual
  rw [size2M_eq p (hp.1.trans_lt hb) (hp.2.trans_lt hb), wrap_of_lt (n := -l) (by omega) (by omega), wrap_of_lt (n := l * l) (by omega) (by omega)]

/-- All points of all paths are in reach. -/
def PathsIn (b : Int) (ps : Paths) : Prop := ∀ path ∈ ps, ∀ q ∈ path, PtIn b q

theorem scanLoopM_eq {d top bottom maxX : Int} (hd : 0 ≤ d ∧ d ≤ 2 ^ 40) (hmax : maxX ≤ 2 ^ 40) (fuel : Nat) (x : Int) (hx : -2 ^ 40 ≤ x) :
    Linear.scanLoopM d top bottom maxX fuel x = Linear.scanLoop d top bottom maxX fuel x := by
  induction fuel generalizing x with
  | zero => rfl
  | succ n ih =>
    unfold Linear.scanLoopM Linear.scanLoop
    by_cases h : x ≤ maxX
    · rw [if_pos h, if_pos h, wrap_of_lt (by omega) (by omega), ih _ (by omega)]
    · rw [if_neg h, if_neg h]

theorem shortenM_eq {w : Int} (hw : 0 ≤ w ∧ w ≤ 2 ^ 40) {p q : IntPoint} (hp : |p.y| ≤ 2 ^ 40) (hq : |q.y| ≤ 2 ^ 40) : Linear.shortenM w p q = Linear.shorten w p q := by
  have h1 : 0 ≤ w.tdiv 2 := Int.tdiv_nonneg hw.1 (by norm_num)
  have h2 : w.tdiv 2 ≤ w := Int.tdiv_le_self _ hw.1
  rw [abs_le] at hp hq
  unfold Linear.shortenM Linear.shorten
  rw [wrap_of_lt (n := p.y - w.tdiv 2) (by omega) (by omega), wrap_of_lt (n := q.y + w.tdiv 2) (by omega) (by omega)]

theorem shorten_in {b w : Int} (hw : 0 ≤ w) {p q : IntPoint} (hp : |p.x| ≤ b ∧ |p.y| ≤ b) (hq : |q.x| ≤ b ∧ |q.y| ≤ b) : ∀ r ∈ Linear.shorten w p q, |r.x| ≤ b ∧ |r.y| ≤ b := by
  have h1 : 0 ≤ w.tdiv 2 := Int.tdiv_nonneg hw (by norm_num)
  unfold Linear.shorten
  split
  · rename_i h
    have hp' := abs_le.1 hp.2
    have hq' := abs_le.1 hq.2
    intro r hr
    rcases List.mem_cons.1 hr with rfl | hr
    · exact ⟨hp.1, abs_le.2 ⟨by simp only; omega, by simp only; omega⟩⟩
    · rcases List.mem_cons.1 hr with rfl | hr
      · exact ⟨hq.1, abs_le.2 ⟨by simp only; omega, by simp only; omega⟩⟩
      · cases hr
  · intro r hr
    rcases List.mem_cons.1 hr with rfl | hr
    · exact hp
    · rcases List.mem_cons.1 hr with rfl | hr
      · exact hq
      · cases hr

theorem infillLineM_eq {w : Int} (hw : 0 ≤ w ∧ w ≤ 2 ^ 40) {n : PolyNode} (hn : ∀ q ∈ n.contour, |q.x| ≤ 2 ^ 40 ∧ |q.y| ≤ 2 ^ 40) : Linear.infillLineM w n = Linear.infillLine w n := by
  unfold Linear.infillLineM Linear.infillLine
  split
  · refine bind_congr_yields yields_index fun p hp => bind_congr_yields yields_index fun q hq => ?_
    rw [shortenM_eq hw (hn p hp).2 (hn q hq).2]
  · rfl

theorem infillLine_in {b w : Int} (hw : 0 ≤ w) {n : PolyNode} (hn : ∀ q ∈ n.contour, |q.x| ≤ b ∧ |q.y| ≤ b) :
    Yields (Linear.infillLine w n) fun r => ∀ q ∈ r, |q.x| ≤ b ∧ |q.y| ≤ b := by
  unfold Linear.infillLine
  split
  · exact yields_bind yields_index fun p hp => yields_bind yields_index fun q hq => yields_pure (shorten_in hw (hn p hp) (hn q hq))
  · exact yields_pure hn

theorem nearestLoopM_eq {b : Int} (hb : b ≤ 2 ^ 28 + 2 ^ 26) {point : Pt} (hp : PtIn b point) {lastPoint : Int} {isUsed : List Bool} (i : Nat) (lines : Paths) (hl : PathsIn b lines)
    (best : Int × Int) (hbest : |best.2| ≤ 2 ^ 30) : Linear.nearestLoopM point lastPoint isUsed i lines best = Linear.nearestLoop point lastPoint isUsed i lines best := by
  induction lines generalizing i best with
  | nil => rfl
  | cons line lines ih =>
    have hrest : PathsIn b lines := fun p h => hl p (List.mem_cons_of_mem _ h)
    unfold Linear.nearestLoopM Linear.nearestLoop
    refine bind_congr_yields (yields_any _) fun used _ => ?_
    cases used
    · simp only [Bool.false_eq_true, if_false]
      refine bind_congr_yields yields_index fun q hq => ?_
      have hq := hl line (by simp) q hq
      have hd := hp.sub hq
      have hs := size_le_pow hd (by omega)
      rw [subM_in hp hq (by omega), shorterM_le hd (by omega) hbest, sizeM_eq hd (by omega), ih _ hrest _ hbest,
        ih _ hrest _ (by rw [abs_of_nonneg hs.1]; exact hs.2)]
    · simp only [if_true]
      exact ih _ hrest _ hbest

theorem connectionM_eq {b : Int} (hb : b ≤ 2 ^ 28 + 2 ^ 26) {cross : Path → Bool × Bool} {limit : Int} (hlim : |limit| ≤ 2 ^ 30) {p q : Pt} (hp : PtIn b p) (hq : PtIn b q) :
    Linear.connectionM cross limit p q = Linear.connection cross limit p q := by
  have hd := hp.sub hq
  unfold Linear.connectionM Linear.connection
  rw [subM_in hp hq (by omega), shorterM_le hd (by omega) hlim]

theorem connection_in {b : Int} {cross : Path → Bool × Bool} {limit : Int} {p q : Pt} (hp : PtIn b p) (hq : PtIn b q) :
    Yields (Linear.connection cross limit p q) (PathsIn b) := by
  unfold Linear.connection
  split
  · dsimp only
    split
    · intro a h; cases h
    · split
      · refine yields_ok ?_
        intro path h r hr
        rw [List.mem_singleton.1 h] at hr
        simp only [List.mem_cons, List.not_mem_nil, or_false] at hr
        rcases hr with rfl | rfl
        · exact hp
        · exact hq
      · refine yields_ok ?_
        intro path h; cases h
  · refine yields_ok ?_
    intro path h; cases h

theorem sortStepM_eq {b : Int} (hb : b ≤ 2 ^ 28 + 2 ^ 26) {cross : Path → Bool × Bool} {zigZag : Bool} {limit : Int} (hlim : |limit| ≤ 2 ^ 30) {unsorted : Paths} (hu : PathsIn b unsorted)
    {s : Linear.SortState} (hs : PathsIn b s.sorted) :
    Linear.sortStepM cross zigZag limit unsorted s = Linear.sortStep cross zigZag limit unsorted s ∧
      Yields (Linear.sortStep cross zigZag limit unsorted s) fun s => PathsIn b s.sorted := by
  unfold Linear.sortStepM Linear.sortStep
  constructor
  · refine bind_congr_yields yields_index fun lastLine hll => bind_congr_yields yields_index fun point hpt => ?_
    rw [nearestLoopM_eq hb (hu _ hll _ hpt) 0 unsorted hu (-1, -1) (by norm_num)]
    refine bind_congr_yields (yields_any _) fun best _ => ?_
    split
    · refine bind_congr_yields yields_index fun line hline => bind_congr_yields yields_index fun head hhead => ?_
      congr 1
      split
      · exact bind_congr_yields yields_index fun p1 h1 => bind_congr_yields yields_index fun p2 h2 => connectionM_eq hb hlim (hs _ hhead _ h1) (hu _ hline _ h2)
      · rfl
    · rfl
  · refine yields_bind yields_index fun lastLine hll => yields_bind yields_index fun point hpt => yields_bind (yields_any _) fun best _ => ?_
    split
    · refine yields_bind yields_index fun line hline => yields_bind yields_index fun head hhead => ?_
      refine yields_bind (P := PathsIn b) ?_ fun extra hextra => ?_
      · split
        · exact yields_bind yields_index fun p1 h1 => yields_bind yields_index fun p2 h2 => connection_in (hs _ hhead _ h1) (hu _ hline _ h2)
        · refine yields_pure ?_
          intro path h; cases h
      · refine yields_bind (P := fun line => ∀ q ∈ line, PtIn b q) ?_ fun line hline => yields_pure ?_
        · split
          · refine yields_bind yields_index fun p1 h1 => yields_bind yields_index fun p2 h2 => yields_pure ?_
            intro q hq
            simp only [List.mem_cons, List.not_mem_nil, or_false] at hq
            rcases hq with rfl | rfl
            · exact hu _ hline _ h1
            · exact hu _ hline _ h2
          · exact yields_pure (hu _ hline)
        · intro path h
          simp only [List.mem_append, List.mem_singleton] at h
          rcases h with (h | h) | rfl
          · exact hs _ h
          · exact hextra _ h
          · exact hline
    · intro a h; cases h

theorem sortLoopM_eq {b : Int} (hb : b ≤ 2 ^ 28 + 2 ^ 26) {cross : Path → Bool × Bool} {zigZag : Bool} {limit : Int} (hlim : |limit| ≤ 2 ^ 30) {unsorted : Paths} (hu : PathsIn b unsorted)
    (n : Nat) (s : Linear.SortState) (hs : PathsIn b s.sorted) :
    Linear.sortLoopM cross zigZag limit unsorted n s = Linear.sortLoop cross zigZag limit unsorted n s := by
  induction n generalizing s with
  | zero => rfl
  | succ n ih =>
    have h := sortStepM_eq hb (cross := cross) (zigZag := zigZag) hlim hu hs
    unfold Linear.sortLoopM Linear.sortLoop
    rw [h.1]
    exact bind_congr_yields h.2 fun s' hs' => ih s' hs'

/-- The numbers of a pattern are not too large. -/
structure PatternFits (p : Linear) : Prop where
  distance : 0 ≤ p.lineDistance ∧ p.lineDistance ≤ 2 ^ 28
  width : 0 ≤ p.lineWidth ∧ p.lineWidth ≤ 10000
  min : PtIn (2 ^ 27) p.min
  max : PtIn (2 ^ 27) p.max

theorem sortInfillM_eq {b : Int} (hb : b ≤ 2 ^ 28 + 2 ^ 26) {p : Linear} (hp : PatternFits p) {cross : Path → Bool × Bool} {unsorted : Paths} (hu : PathsIn b unsorted) :
    p.sortInfillM cross unsorted = p.sortInfill cross unsorted := by
  unfold Linear.sortInfillM Linear.sortInfill
  cases unsorted with
  | nil => rfl
  | cons first rest =>
    have h1 := hp.distance
    have h2 := hp.width
    simp only
    rw [wrap_of_lt (n := p.lineDistance * 2) (by omega) (by omega), wrap_of_lt (n := p.lineWidth + p.lineDistance * 2) (by omega) (by omega),
      sortLoopM_eq hb (by rw [abs_le]; constructor <;> omega) hu]
    intro path h
    rw [List.mem_singleton.1 h]
    exact hu first (by simp)

theorem rotate_in {s c : ℚ} {θ : ℝ} (hs : |(s : ℝ) - Real.sin θ| ≤ 1 / 2 ^ 48) (hc : |(c : ℝ) - Real.cos θ| ≤ 1 / 2 ^ 48) {p : Pt} (hp : PtIn (2 ^ 27) p) :
    PtIn (2 ^ 28 + 1) (p.rotate s c) := by
  have hS := Real.abs_sin_le_one θ
  have hC := Real.abs_cos_le_one θ
  have hn : |((-s : ℚ) : ℝ) - (-Real.sin θ)| ≤ 1 / 2 ^ 48 := by
    rw [← abs_neg]; push_cast; convert hs using 2; ring
  have hx : |p.x| ≤ 2 ^ 40 := hp.1.trans (by norm_num)
  have hy : |p.y| ≤ 2 ^ 40 := hp.2.trans (by norm_num)
  have e1 := rotate_coord_err p.x p.y c (-s) _ _ hx hy hc hn hC (by rwa [abs_neg])
  have e2 := rotate_coord_err p.x p.y s c _ _ hx hy hs hc hS hC
  have hxr : |(p.x : ℝ)| ≤ 2 ^ 27 := by exact_mod_cast hp.1
  have hyr : |(p.y : ℝ)| ≤ 2 ^ 27 := by exact_mod_cast hp.2
  have lin : ∀ (n : Int) (u v : ℝ), |u| ≤ 1 → |v| ≤ 1 → |(n : ℝ) - (p.x * u + p.y * v)| ≤ 1 / 2 + 1 / 32 → |n| ≤ 2 ^ 28 + 1 := by
    intro n u v hu hv h
    have h1 : |p.x * u + p.y * v| ≤ (2 : ℝ) ^ 28 := by
      calc |p.x * u + p.y * v| ≤ |(p.x : ℝ)| * |u| + |(p.y : ℝ)| * |v| := by rw [← abs_mul, ← abs_mul]; exact abs_add_le _ _
        _ ≤ 2 ^ 27 * 1 + 2 ^ 27 * 1 := by gcongr
        _ = 2 ^ 28 := by norm_num
    rw [abs_le] at h h1
    have : |(n : ℝ)| ≤ ((2 ^ 28 + 1 : Int) : ℝ) := by push_cast; rw [abs_le]; constructor <;> linarith
    exact_mod_cast this
  constructor
  · have : (p.rotate s c).x = roundEven (r64 (r64 (r64 (p.x : ℚ) * c) + r64 (r64 (p.y : ℚ) * (-s)))) := by
      simp only [Pt.rotate, mul_neg, r64_neg, sub_eq_add_neg]
    rw [this]
    exact lin _ _ _ hC (by rwa [abs_neg]) e1
  · exact lin _ _ _ hS hC e2

theorem pathRotate_in {trig : ℚ → ℚ × ℚ} (ht : TurnsBack trig) (d : ℚ) {path : Path} (hp : ∀ q ∈ path, PtIn (2 ^ 27) q) : ∀ q ∈ pathRotate d (trig d).1 (trig d).2 path, PtIn (2 ^ 28 + 1) q := by
  obtain ⟨θ, hs, hc, -, -⟩ := ht d
  unfold pathRotate
  split
  · exact fun q hq => (hp q hq).mono (by norm_num)
  · intro q hq
    obtain ⟨r, hr, rfl⟩ := List.mem_map.1 hq
    exact rotate_in hs hc (hp r hr)

theorem pathBounds_in {b : Int} (hb : b ≤ 2 ^ 60) (h0 : 0 ≤ b) {path : Path} (hp : ∀ q ∈ path, PtIn b q) : PtIn b (pathBounds path).1 ∧ PtIn b (pathBounds path).2 := by
  by_cases he : path = []
  · subst he
    rw [C10_path_empty]
    simp [PtIn, h0]
  · obtain ⟨-, ⟨p1, m1, e1⟩, ⟨p2, m2, e2⟩, ⟨p3, m3, e3⟩, ⟨p4, m4, e4⟩⟩ := C10_path path he (fun q hq => by
      have := hp q hq
      simp only [PtIn, abs_le] at this
      unfold Int64Pt minMicrometer maxMicrometer
      omega)
    exact ⟨⟨e1 ▸ (hp p1 m1).1, e2 ▸ (hp p2 m2).2⟩, ⟨e3 ▸ (hp p3 m3).1, e4 ▸ (hp p4 m4).2⟩⟩

/-- All points of the part are at most `b` away from the axes. -/
def PartIn (b : Int) (part : LayerPart) : Prop := (∀ q ∈ part.outline, PtIn b q) ∧ ∀ h ∈ part.holes, ∀ q ∈ h, PtIn b q

theorem clip_in {lib : ClipperLib} (hl : StaysInside lib) {b : Int} {s clip : List (List IntPoint)} {tree : List PolyNode} (htree : lib.executeOpen .intersection s clip = some tree)
    (hc : ∀ contour ∈ clip, ∀ q ∈ contour, |q.x| ≤ b ∧ |q.y| ≤ b) : ∀ n ∈ tree, ∀ q ∈ n.contour, |q.x| ≤ b + 1 ∧ |q.y| ≤ b + 1 := by
  intro n hn q hq
  have k1 := hl.lines 1 0 b _ _ _ (by norm_num) htree (fun c h q hq => by have := (abs_le.1 (hc c h q hq).1).2; simp only [one_mul, zero_mul, add_zero]; exact_mod_cast this) n hn q hq
  have k2 := hl.lines (-1) 0 b _ _ _ (by norm_num) htree (fun c h q hq => by
    have := neg_le.1 (abs_le.1 (hc c h q hq).1).1; simp only [neg_mul, one_mul, zero_mul, add_zero]; exact_mod_cast this) n hn q hq
  have k3 := hl.lines 0 1 b _ _ _ (by norm_num) htree (fun c h q hq => by have := (abs_le.1 (hc c h q hq).2).2; simp only [one_mul, zero_mul, zero_add]; exact_mod_cast this) n hn q hq
  have k4 := hl.lines 0 (-1) b _ _ _ (by norm_num) htree (fun c h q hq => by
    have := neg_le.1 (abs_le.1 (hc c h q hq).2).1; simp only [neg_mul, one_mul, zero_mul, zero_add]; exact_mod_cast this) n hn q hq
  constructor
  · have : |(q.x : ℝ)| ≤ ((b + 1 : Int) : ℝ) := by push_cast; rw [abs_le]; constructor <;> linarith
    exact_mod_cast this
  · have : |(q.y : ℝ)| ≤ ((b + 1 : Int) : ℝ) := by push_cast; rw [abs_le]; constructor <;> linarith
    exact_mod_cast this

/-- **C127** A pattern does not overflow. -/
theorem C127_fill {lib : ClipperLib} (hl : StaysInside lib) {trig : ℚ → ℚ × ℚ} (ht : TurnsBack trig) {p : Linear} (hp : PatternFits p) (layerNr : Nat) {part : LayerPart} (hpart : PartIn (2 ^ 27) part) :
    p.fillM lib trig layerNr part = p.fill lib trig layerNr part := by
  unfold Linear.fillM Linear.fill
  dsimp only
  generalize p.rotation layerNr = rot
  have hw : 0 ≤ (if p.zigZag then p.lineWidth else 0) ∧ (if p.zigZag then p.lineWidth else 0) ≤ 2 ^ 40 := by have := hp.width; split <;> omega
  generalize (if p.zigZag then p.lineWidth else 0) = w at hw ⊢
  have hbox := pathBounds_in (b := 2 ^ 28 + 1) (by norm_num) (by norm_num) (pathRotate_in ht rot (path := [p.min, ⟨p.max.x, p.min.y⟩, p.max, ⟨p.min.x, p.max.y⟩]) (by
    intro q hq
    have h1 := hp.min
    have h2 := hp.max
    simp only [List.mem_cons, List.not_mem_nil, or_false] at hq
    rcases hq with rfl | rfl | rfl | rfl
    · exact h1
    · exact ⟨h2.1, h1.2⟩
    · exact h2
    · exact ⟨h1.1, h2.2⟩))
  generalize pathBounds (pathRotate rot (trig rot).1 (trig rot).2 [p.min, ⟨p.max.x, p.min.y⟩, p.max, ⟨p.min.x, p.max.y⟩]) = box at hbox ⊢
  have hclip : ∀ contour ∈ clipperPath (pathRotate rot (trig rot).1 (trig rot).2 part.outline) :: clipperPaths (pathsRotate rot (trig rot).1 (trig rot).2 part.holes),
      ∀ q ∈ contour, |q.x| ≤ 2 ^ 28 + 1 ∧ |q.y| ≤ 2 ^ 28 + 1 := by
    intro contour hc q hq
    rcases List.mem_cons.1 hc with rfl | hc
    · obtain ⟨r, hr, rfl⟩ := List.mem_map.1 hq
      exact pathRotate_in ht rot hpart.1 r hr
    · obtain ⟨path, hpath, rfl⟩ := List.mem_map.1 hc
      obtain ⟨hole, hhole, rfl⟩ := List.mem_map.1 hpath
      obtain ⟨r, hr, rfl⟩ := List.mem_map.1 hq
      exact pathRotate_in ht rot (hpart.2 hole hhole) r hr
  generalize clipperPath (pathRotate rot (trig rot).1 (trig rot).2 part.outline) = outline at hclip ⊢
  generalize clipperPaths (pathsRotate rot (trig rot).1 (trig rot).2 part.holes) = holes at hclip ⊢
  have hd := hp.distance
  have h1 := abs_le.1 hbox.1.1
  have h2 := abs_le.1 hbox.2.1
  have hscan : Linear.scanLinesM p.lineDistance box.1 box.2 = Linear.scanLines p.lineDistance box.1 box.2 :=
    scanLoopM_eq (by omega) (by omega) _ _ (by omega)
  have hget : Linear.getInfillM lib p.lineDistance box.1 box.2 outline holes w = Linear.getInfill lib p.lineDistance box.1 box.2 outline holes w ∧
      Yields (Linear.getInfill lib p.lineDistance box.1 box.2 outline holes w) fun r => ∀ path ∈ r, ∀ q ∈ path, |q.x| ≤ 2 ^ 28 + 2 ∧ |q.y| ≤ 2 ^ 28 + 2 := by
    unfold Linear.getInfillM Linear.getInfill
    rw [hscan]
    cases Linear.scanLines p.lineDistance box.1 box.2 with
    | none => exact ⟨rfl, fun a h => by cases h⟩
    | some lines =>
      simp only
      cases htree : lib.executeOpen .intersection lines (outline :: holes) with
      | none => exact ⟨rfl, fun a h => by cases h⟩
      | some tree =>
        have hin := clip_in hl htree hclip
        refine ⟨mapM_congr _ fun n hn => infillLineM_eq hw fun q hq => ?_, yields_mapM _ fun n hn => infillLine_in hw.1 fun q hq => hin n hn q hq⟩
        have := hin n hn q hq
        exact ⟨this.1.trans (by norm_num), this.2.trans (by norm_num)⟩
  rw [hget.1]
  refine bind_congr_yields hget.2 fun infill hinf => ?_
  refine bind_congr_yields (P := PathsIn (2 ^ 28 + 2)) (yields_mapM _ fun path hpath => ?_) fun paths hpaths => ?_
  · unfold microPath
    simp only [Bool.false_eq_true, if_false]
    refine yields_ok ?_
    intro q hq
    obtain ⟨r, hr, rfl⟩ := List.mem_map.1 hq
    exact hinf path hpath r hr
  · rw [sortInfillM_eq (by norm_num) hp hpaths]

/-! ## The patterns of the program -/

/-- Two patterns give the same lines for each part on the bed. -/
def FillsSame (f g : Option Pattern) : Prop := match f, g with
  | none, none => True
  | some f, some g => ∀ n part, PartIn (2 ^ 27) part → f n part = g n part
  | _, _ => False

/-- All patterns give the same lines for each part on the bed. -/
structure PatternsSame (a b : Patterns) : Prop where
  support : FillsSame a.support b.support
  supportInterface : FillsSame a.supportInterface b.supportInterface
  bottom : FillsSame a.bottom b.bottom
  top : FillsSame a.top b.top
  infill : FillsSame a.infill b.infill

/-- The same error, or results which are in a relation. -/
def SameRes {α β : Type} (r : α → β → Prop) : Res α → Res β → Prop
  | .ok a, .ok b => r a b
  | .error e, .error f => e = f
  | _, _ => False

theorem infillDistanceM_eq {w percent : Int} (hw : 0 ≤ w ∧ w ≤ 10000) : infillDistanceM w percent = infillDistance w percent := by
  unfold infillDistanceM infillDistance
  rw [mm10_eq]
  refine bind_congr_yields (P := fun n => 0 ≤ n ∧ n ≤ 10000) ?_ fun n hn => ?_
  · unfold quo
    split
    · intro a h; cases h
    · intro a h
      cases h
      exact ⟨Int.tdiv_nonneg (by norm_num) hw.1, Int.tdiv_le_self _ (by norm_num)⟩
  · rw [wrap_of_lt (by omega) (by omega)]

theorem infillDistance_le {w percent : Int} (hw : 0 ≤ w ∧ w ≤ 10000) (hp : 0 < percent ∧ percent ≤ 100) : Yields (infillDistance w percent) fun d => 0 ≤ d ∧ d ≤ 2 ^ 28 := by
  obtain ⟨w, rfl⟩ := Int.eq_ofNat_of_zero_le hw.1
  obtain ⟨percent, rfl⟩ := Int.eq_ofNat_of_zero_le hp.1.le
  rcases Nat.eq_zero_or_pos w with rfl | h0
  · intro d h
    unfold infillDistance quo at h
    cases h
  · rw [C80_distance w percent h0 (by omega) (by omega) (by omega)]
    refine yields_ok ⟨by positivity, ?_⟩
    have := Nat.div_le_self 1000000 (10000 / w * percent)
    norm_cast
    omega

theorem C127_patterns {lib : ClipperLib} (hl : StaysInside lib) {trig : ℚ → ℚ × ℚ} (ht : TurnsBack trig) {tan : ℚ} {o : Options} (ho : OptionsFit tan o)
    (hp : 0 ≤ o.print.infillPercent ∧ o.print.infillPercent ≤ 100) {min max : Pt} (hmin : PtIn (2 ^ 26) min) (hmax : PtIn (2 ^ 26) max) :
    SameRes PatternsSame (standardPatternsM lib trig o min max) (standardPatterns lib trig o min max) := by
  have hs := ho.spacing
  have hs' : 0 ≤ patternSpacing o ∧ patternSpacing o ≤ 2 ^ 26 := hs
  have hw := ho.width
  have a1 := abs_le.1 hmin.1
  have a2 := abs_le.1 hmin.2
  have a3 := abs_le.1 hmax.1
  have a4 := abs_le.1 hmax.2
  have e1 : supportPatternM o min max = supportPattern o min max := by
    unfold supportPatternM supportPattern
    rw [wrap_of_lt (by omega) (by omega), wrap_of_lt (by omega) (by omega), wrap_of_lt (by omega) (by omega), wrap_of_lt (by omega) (by omega)]
  have e2 : interfacePatternM o min max = interfacePattern o min max := by
    unfold interfacePatternM interfacePattern
    rw [wrap_of_lt (by omega) (by omega), wrap_of_lt (by omega) (by omega), wrap_of_lt (by omega) (by omega), wrap_of_lt (by omega) (by omega)]
  have e3 : internalPatternM o min max = internalPattern o min max := by
    unfold internalPatternM internalPattern
    rw [infillDistanceM_eq hw]
  have hmin' := hmin.mono (show (2 : Int) ^ 26 ≤ 2 ^ 27 by norm_num)
  have hmax' := hmax.mono (show (2 : Int) ^ 26 ≤ 2 ^ 27 by norm_num)
  have hlo : PtIn (2 ^ 27) ⟨min.x - patternSpacing o, min.y - patternSpacing o⟩ := by
    constructor <;> (rw [abs_le]; simp only; omega)
  have hhi : PtIn (2 ^ 27) ⟨max.x + patternSpacing o, max.y + patternSpacing o⟩ := by
    constructor <;> (rw [abs_le]; simp only; omega)
  have f1 : PatternFits (supportPattern o min max) := ⟨⟨hs'.1, hs'.2.trans (by norm_num)⟩, hw, hlo, hhi⟩
  have f2 : PatternFits (interfacePattern o min max) := ⟨⟨hw.1, hw.2.trans (by norm_num)⟩, hw, hlo, hhi⟩
  have f3 : PatternFits (topBottomPattern o min max) := ⟨⟨hw.1, hw.2.trans (by norm_num)⟩, hw, hmin', hmax'⟩
  have hint : Yields (internalPattern o min max) fun p => ∀ q, p = some q → PatternFits q := by
    unfold internalPattern
    split
    · exact yields_bind (infillDistance_le hw ⟨by omega, hp.2⟩) fun d hd => yields_pure (by rintro q ⟨⟩; exact ⟨hd, hw, hmin', hmax'⟩)
    · exact yields_pure (by rintro q ⟨⟩)
  unfold standardPatternsM standardPatterns
  rw [e1, e2, e3]
  cases hi : internalPattern o min max with
  | error e => rfl
  | ok internal =>
    refine ⟨fun n part h => C127_fill hl ht f1 n h, fun n part h => C127_fill hl ht f2 n h, fun n part h => C127_fill hl ht f3 n h, fun n part h => C127_fill hl ht f3 n h, ?_⟩
    cases internal with
    | none => trivial
    | some q => exact fun n part h => C127_fill hl ht (hint _ hi q rfl) n h

end Verif
