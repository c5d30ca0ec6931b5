import Verif.Spec.Column
import Verif.Props.Sides
import Verif.Props.Support

/-! # Support at a point which is not near to a contour (C123) -/
namespace Verif
open Verif.Go Verif.Model Verif.Spec

/-- All contours of the parts are farther than `D` away from the point, and the point is in their region exactly if `P` holds. -/
def Shows (D : ℚ) (ps : List LayerPart) (x : ℚ × ℚ) (P : Prop) : Prop := Clear D ps x ∧ (x ∈ region enclosedBy ps ↔ P)

/-- The attribute of the layer shows the property at the point. -/
def AttrShows (D : ℚ) (l : Layer) (name : String) (x : ℚ × ℚ) (P : Prop) : Prop := ∀ ps, l.partsAttribute name = .ok ps → Shows D ps x P

section
variable {lib : ClipperLib} {tol D : ℚ} {x : ℚ × ℚ} {o : Options}

theorem Shows.mono {E : ℚ} {ps : List LayerPart} {P : Prop} (h : Shows D ps x P) (hE : 0 ≤ E) (hED : E ≤ D) : Shows E ps x P := ⟨h.1.mono hE hED, h.2⟩

theorem Shows.congr {ps : List LayerPart} {P Q : Prop} (h : Shows D ps x P) (hPQ : P ↔ Q) : Shows D ps x Q := ⟨h.1, h.2.trans hPQ⟩

theorem shows_nil {P : Prop} (hP : ¬ P) : Shows D [] x P := ⟨clear_nil, by simp [hP]⟩

theorem attrShows_none {l : Layer} {name : String} (h : l.attr name = none) {P : Prop} (hP : ¬ P) : AttrShows D l name x P := by
  intro ps hps
  rw [(C68_parts l _).2.1 h] at hps
  cases hps
  exact shows_nil hP

theorem difference_shows (hk : KeepsSides lib tol) (hD : 0 ≤ D) {a b r : List LayerPart} {P Q : Prop} (h : lib.difference a b = some r) (ha : Shows (D + tol) a x P)
    (hb : Shows (D + tol) b x Q) : Shows D r x (P ∧ ¬ Q) := by
  obtain ⟨h1, -, h2⟩ := clip_sides hk hD h ha.1 hb.1
  refine ⟨h1, h2.trans ?_⟩
  show _ ∧ _ ↔ _
  rw [ha.2, hb.2]

theorem union_shows (hk : KeepsSides lib tol) (hD : 0 ≤ D) {a b r : List LayerPart} {P Q : Prop} (h : lib.union a b = some r) (ha : Shows (D + tol) a x P)
    (hb : Shows (D + tol) b x Q) : Shows D r x (P ∨ Q) := by
  obtain ⟨h1, -, h2⟩ := clip_sides hk hD h ha.1 hb.1
  refine ⟨h1, h2.trans ?_⟩
  show _ ∨ _ ↔ _
  rw [ha.2, hb.2]

/-- An offset of all parts of a layer. -/
theorem offset_shows (hk : KeepsSides lib tol) (hD : 0 ≤ D) {ps : List LayerPart} (hp : ∀ p ∈ ps, LibArea lib (partContours p)) {d : ℚ} {P : Prop} (h : Shows (D + 3 / 2 * |d| + tol) ps x P) :
    Shows D (ps.flatMap fun p => lib.inset1 p d) x P := by
  have := alike_flatMap (D := D) (x := x) (ps := ps) (f := fun p => lib.inset1 p d) fun p hpm => inset1_sides hk hD (hp p hpm) (h.1.single hpm)
  exact ⟨this.1, this.region.trans h.2⟩

/-- How far the contours of the detected support may be away from the contours of the layers. -/
def detectDepth (tan : ℚ) (o : Options) (tol D : ℚ) : ℚ :=
  D + 3 / 2 * |r64 (((toMicrometer o.print.support.patternSpacing * 3).tdiv 2 : Int) : ℚ)| + 3 / 2 * |(((supportDistance tan o).tdiv 2 : Int) : ℚ)| + 3 * tol

/-- Support is detected where the layer above is, and the layer below is not. -/
theorem detect_shows (hk : KeepsSides lib tol) (h0 : 0 ≤ tol) (hD : 0 ≤ D) {tan : ℚ} (hd : |supportDistance tan o| ≤ 2 ^ 53) {below above : Layer} {support : List LayerPart}
    (h : detectSupport lib tan o below above = .ok support) (hlb : ∀ p ∈ below.parts, LibArea lib (partContours p)) {P Q : Prop}
    (ha : Shows (detectDepth tan o tol D) above.parts x P) (hb : Shows (detectDepth tan o tol D) below.parts x Q) : Shows D support x (P ∧ ¬ Q) := by
  obtain ⟨overhang, h1, rfl⟩ := C82_threshold lib tan o below above support hd h
  have a1 := abs_nonneg (r64 (((toMicrometer o.print.support.patternSpacing * 3).tdiv 2 : Int) : ℚ))
  have a2 := abs_nonneg (((supportDistance tan o).tdiv 2 : Int) : ℚ)
  unfold detectDepth at ha hb
  refine offset_shows hk hD (clip_libArea h1) (difference_shows hk (by linarith) h1 (ha.mono (by linarith) (by linarith)) ?_)
  exact offset_shows hk (by linarith) hlb (hb.mono (by linarith) (by linarith))

/-- The model enlarged by the gap. -/
theorem bigger_shows (hk : KeepsSides lib tol) (hD : 0 ≤ D) (hg : |toMicrometer o.print.support.gap| ≤ 2 ^ 53) {l : Layer} (hl : ∀ p ∈ l.parts, LibArea lib (partContours p)) {P : Prop}
    (h : Shows (D + 3 / 2 * |(((toMicrometer o.print.support.gap).tdiv 2 : Int) : ℚ)| + tol) l.parts x P) : Shows D (biggerLayer lib o l) x P := by
  rw [C82_gap lib o l hg]
  exact offset_shows hk hD hl h

/-- Interface and remaining support. -/
theorem interface_shows (hk : KeepsSides lib tol) (h0 : 0 ≤ tol) (hD : 0 ≤ D) {ls : List Layer} {m : Nat} {below : Layer} (hbrim : below.attr "outerBrim" = none) {actual : List LayerPart}
    {P Q : Prop} (ha : Shows (D + 2 * tol) actual x P)
    (hab : ∀ above, ls[(min (m + o.print.support.interfaceLayers) ((ls.length : Int) - 1)).toNat]? = some above → AttrShows (D + 2 * tol) above "fullSupport" x Q) :
    Yields (supportInterface lib o ls (m + 1) below actual) fun r => Shows D r.1 x (P ∧ ¬ Q) ∧ Shows D r.2 x (P ∧ Q) := by
  intro r h
  unfold supportInterface at h
  split at h
  · next he =>
    cases h
    subst he
    have hP : ¬ P := fun hP => by simpa using ha.2.2 hP
    exact ⟨shows_nil fun h => hP h.1, shows_nil fun h => hP h.1⟩
  · simp only [bind_ok] at h
    obtain ⟨above, hidx, supportAbove, hs, interface, hi, rest, hr, brim, hbr, h⟩ := h
    have e : (if ((m + 1 : Nat) : Int) + o.print.support.interfaceLayers - 1 ≥ ls.length then (ls.length : Int) - 1
        else ((m + 1 : Nat) : Int) + o.print.support.interfaceLayers - 1) =
        min (m + o.print.support.interfaceLayers) ((ls.length : Int) - 1) := by
      split <;> omega
    rw [e] at hidx
    have hS := hab above (index_ok hidx).2 _ hs
    have ri := difference_shows hk (D := D + tol) (by linarith) (orErr_ok hi) (ha.mono (by linarith) (by linarith)) (hS.mono (by linarith) (by linarith))
    have rr := difference_shows hk hD (orErr_ok hr) (ha.mono (by linarith) (by linarith)) ri
    have hb0 : brim = [] := by
      have := brimOuter_eq _ _ hbr
      rw [(C68_parts below _).2.1 hbrim] at this
      cases this
      rfl
    rw [if_pos hb0] at h
    cases h
    refine ⟨ri.mono hD (by linarith), rr.congr ?_⟩
    tauto

/-- One step of the generator. -/
theorem generatorStep_shows (hk : KeepsSides lib tol) (h0 : 0 ≤ tol) (hD : 0 ≤ D) {cur : List Layer} {last : List LayerPart} {r : List Layer × List LayerPart} {m : Nat}
    (h : generatorStep lib o (m + 1) cur last = .ok r) {below : Layer} (hbel : cur[m]? = some below)
    (hno : below.attr "fullSupport" = none ∧ below.attr "supportInterface" = none) (hbrim : below.attr "outerBrim" = none) {C d B Q : Prop}
    (hcur : ∀ layer c, cur[m + 1]? = some layer → currentSupport layer last = .ok c → Shows (D + 4 * tol) c x C) (hdet : AttrShows (D + 4 * tol) below "support" x d)
    (hbig : Shows (D + 3 * tol) (biggerLayer lib o below) x B)
    (hab : ∀ above, cur[(min (m + o.print.support.interfaceLayers) ((cur.length : Int) - 1)).toNat]? = some above → AttrShows (D + 2 * tol) above "fullSupport" x Q) :
    ∃ l, r.1[m]? = some l ∧ AttrShows (D + 2 * tol) l "fullSupport" x ((C ∨ d) ∧ ¬ B) ∧ AttrShows D l "supportInterface" x (((C ∨ d) ∧ ¬ B) ∧ ¬ Q) ∧
      AttrShows D l "support" x (((C ∨ d) ∧ ¬ B) ∧ Q) ∧ ∀ c, currentSupport l r.2 = .ok c → Shows (D + 2 * tol) c x ((C ∨ d) ∧ ¬ B) := by
  simp only [generatorStep, bind_ok] at h
  obtain ⟨layer, hlay, below', hbel', current, hcs, bs, hbs, h⟩ := h
  have hlay := index_nat.1 hlay
  have hbel' : cur[m]? = some below' := by
    have := (index_ok hbel').2
    have e : (((m + 1 : Nat) : Int) - 1).toNat = m := by omega
    rwa [e] at this
  rw [hbel] at hbel'
  cases hbel'
  have hC := hcur layer current hlay hcs
  have hd := hdet bs hbs
  split at h
  · next hz =>
    cases h
    obtain ⟨hz1, hz2⟩ := hz
    have hz1 := List.length_eq_zero_iff.1 hz1
    have hz2 := List.length_eq_zero_iff.1 hz2
    subst hz1 hz2
    have hlast : last = [] := by
      by_contra hc
      unfold currentSupport at hcs
      rw [if_neg hc] at hcs
      cases hcs
      exact hc rfl
    have nC : ¬ C := fun h => by simpa using hC.2.2 h
    have nd : ¬ d := fun h => by simpa using hd.2.2 h
    have nn : ¬ ((C ∨ d) ∧ ¬ B) := by tauto
    refine ⟨below, hbel, attrShows_none hno.1 nn, attrShows_none hno.2 fun h => nn h.1, fun ps hps => ?_, fun c hc => ?_⟩
    · rw [hbs] at hps
      cases hps
      exact shows_nil fun h => nn h.1
    · unfold currentSupport at hc
      rw [if_pos hlast, hbs] at hc
      cases hc
      exact shows_nil nn
  · simp only [bind_ok, pure, Except.pure, Except.ok.injEq] at h
    obtain ⟨result, hres, actual, hact, parts, hparts, rfl⟩ := h
    obtain ⟨a1, a2, a3, a4⟩ := setSupport_attrs below actual parts.1 parts.2 hno.1 hno.2
    have hlt : m < cur.length := (List.getElem?_eq_some_iff.1 hbel).1
    have e1 : Shows (D + 3 * tol) result x (C ∨ d) := union_shows hk (by linarith) (orErr_ok hres) (hC.mono (by linarith) (by linarith)) (hd.mono (by linarith) (by linarith))
    have e2 : Shows (D + 2 * tol) actual x ((C ∨ d) ∧ ¬ B) := difference_shows hk (by linarith) (orErr_ok hact) (e1.mono (by linarith) (by linarith)) (hbig.mono (by linarith) (by linarith))
    obtain ⟨e3, e4⟩ := interface_shows hk h0 hD hbrim e2 hab _ hparts
    refine ⟨setSupport below actual parts.1 parts.2, by simp [hlt], fun ps hps => ?_, fun ps hps => ?_, fun ps hps => ?_, fun c hc => ?_⟩
    · rw [a1] at hps; cases hps; exact e2
    · rw [a2] at hps; cases hps; exact e3
    · rw [a3] at hps; cases hps; exact e4
    · unfold currentSupport at hc
      split at hc
      · next hz =>
        simp only at hz
        subst hz
        rw [a3] at hc
        have : parts = ([], []) := by
          unfold supportInterface at hparts
          rw [if_pos rfl] at hparts
          cases hparts
          rfl
        rw [this] at hc
        cases hc
        exact e2
      · cases hc
        exact e2

theorem AttrShows.mono {E : ℚ} {l : Layer} {name : String} {P : Prop} (h : AttrShows D l name x P) (hE : 0 ≤ E) (hED : E ≤ D) : AttrShows E l name x P :=
  fun ps hps => (h ps hps).mono hE hED

theorem AttrShows.congr {l : Layer} {name : String} {P Q : Prop} (h : AttrShows D l name x P) (hPQ : P ↔ Q) : AttrShows D l name x Q :=
  fun ps hps => (h ps hps).congr hPQ

/-- The loop of the generator. -/
theorem generatorLoop_shows (hk : KeepsSides lib tol) (h0 : 0 ≤ tol) (hD : 0 ≤ D) {ls : List Layer} {col det big : Nat → Prop}
    (hcol : ∀ i, i + 2 < ls.length → (col i ↔ (col (i + 1) ∨ det i) ∧ ¬ big i)) (hno : ∀ l ∈ ls, l.attr "fullSupport" = none ∧ l.attr "supportInterface" = none) {m : Nat}
    (hbrim : ∀ i l, m ≤ i → ls[i]? = some l → l.attr "outerBrim" = none)
    (hdet : ∀ i l, m ≤ i → i + 2 < ls.length → ls[i]? = some l → AttrShows (D + 2 * (ls.length + 1) * tol) l "support" x (det i))
    (hbig : ∀ i l, m ≤ i → i + 2 < ls.length → ls[i]? = some l → Shows (D + 2 * (ls.length + 1) * tol) (biggerLayer lib o l) x (big i))
    {n : Nat} {cur ls' : List Layer} {last : List LayerPart} (h : generatorLoop lib o n cur last = .ok ls') (hlen : cur.length = ls.length) (hn : n + 1 < ls.length)
    (hlow : ∀ i < n, cur[i]? = ls[i]?) (hhigh : ∀ i, ls.length ≤ i + 2 → cur[i]? = ls[i]?)
    (hfull : ∀ i l, n ≤ i → i + 2 < ls.length → cur[i]? = some l → AttrShows (D + 2 * (i + 1) * tol) l "fullSupport" x (col i))
    (hinv : ∀ layer c, cur[n]? = some layer → currentSupport layer last = .ok c → Shows (D + 2 * (n + 1) * tol) c x (col n)) (hm : m < n) :
    ∃ l, ls'[m]? = some l ∧ AttrShows D l "supportInterface" x (col m ∧ ¬ ColumnAbove o.print.support.interfaceLayers ls.length col m) ∧ AttrShows D l "support" x (col m ∧ ColumnAbove o.print.support.interfaceLayers ls.length col m) := by
  induction n generalizing cur last with
  | zero => omega
  | succ n ih =>
    simp only [generatorLoop, bind_ok] at h
    obtain ⟨r, hr, h⟩ := h
    have hkeep := generatorStep_keeps lib o _ _ _ _ hr
    obtain ⟨below, hbel⟩ : ∃ l, ls[n]? = some l := ⟨_, List.getElem?_eq_getElem (by omega)⟩
    have hbel' : cur[n]? = some below := by rw [hlow n (by omega), hbel]
    have hnt : (0 : ℚ) ≤ n * tol := by positivity
    have hNn : (n : ℚ) * tol ≤ ls.length * tol := mul_le_mul_of_nonneg_right (by exact_mod_cast (by omega : n ≤ ls.length)) h0
    have hN1 : ((n : ℚ) + 1) * tol ≤ ls.length * tol := mul_le_mul_of_nonneg_right (by exact_mod_cast (by omega : n + 1 ≤ ls.length)) h0
    have hnob := hno below (List.mem_of_getElem? hbel)
    obtain ⟨l, r1, r2, r3, r4, r5⟩ := generatorStep_shows hk h0 (D := D + 2 * n * tol) (by linarith) hr hbel' hnob (hbrim n below (by omega) hbel)
      (C := col (n + 1)) (d := det n) (B := big n) (Q := ColumnAbove o.print.support.interfaceLayers ls.length col n) (fun layer c h1 h2 => by
        have := hinv layer c h1 h2
        push_cast at this
        exact this.mono (by linarith) (by linarith))
      ((hdet n below (by omega) (by omega) hbel).mono (by linarith) (by linarith)) ((hbig n below (by omega) (by omega) hbel).mono (by linarith) (by linarith)) (fun above habove => by
        rw [hlen] at habove
        by_cases hpos : 0 < o.print.support.interfaceLayers
        · by_cases hin : n + o.print.support.interfaceLayers.toNat + 2 < ls.length
          · have e : (min (n + o.print.support.interfaceLayers) ((ls.length : Int) - 1)).toNat = n + o.print.support.interfaceLayers.toNat := by omega
            rw [e] at habove
            have hle : (n : ℚ) * tol ≤ ((n + o.print.support.interfaceLayers.toNat : Nat) : ℚ) * tol := mul_le_mul_of_nonneg_right (by exact_mod_cast (by omega)) h0
            refine ((hfull _ above (by omega) (by omega) habove).mono (by linarith) ?_).congr ⟨fun h => ⟨hpos, hin, h⟩, fun h => h.2.2⟩
            linarith
          · rw [hhigh _ (by omega)] at habove
            exact attrShows_none (hno above (List.mem_of_getElem? habove)).1 fun h => hin h.2.1
        · rw [hlow _ (by omega)] at habove
          exact attrShows_none (hno above (List.mem_of_getElem? habove)).1 fun h => hpos h.1)
    have hc := hcol n (by omega)
    rw [← hc] at r2 r3 r4 r5
    have hlen' : r.1.length = ls.length := by
      rw [← hlen]
      exact ((generatorStep_same lib o _ _ _ _ hr).length_eq).symm
    by_cases hmn : m = n
    · subst hmn
      exact ⟨l, by rw [generatorLoop_keeps lib o m _ _ _ h m le_rfl]; exact r1, r3.mono hD (by linarith), r4.mono hD (by linarith)⟩
    · refine ih h hlen' (by omega) (fun i hi => ?_) (fun i hi => ?_) (fun i li h1 h2 h3 => ?_) (fun layer c h1 h2 => ?_) (by omega)
      · rw [hkeep i (by omega), hlow i (by omega)]
      · rw [hkeep i (by omega), hhigh i hi]
      · by_cases hin : i = n
        · subst hin
          rw [r1] at h3
          cases h3
          exact r2.mono (by linarith) (by linarith)
        · rw [hkeep i (by omega)] at h3
          exact hfull i li (by omega) h2 h3
      · rw [r1] at h1
        cases h1
        exact (r5 c h2).mono (by linarith) (by linarith)

theorem column_step {g N : Nat} {ins : Nat → Prop} {m : Nat} (hm : m + 2 < N) : Column g N ins m ↔ (Column g N ins (m + 1) ∨ Overhang g N ins m) ∧ ¬ ins m := by
  constructor
  · rintro ⟨k, h1, h2, h3, h4⟩
    refine ⟨?_, h4 m le_rfl h1 hm⟩
    by_cases hk : k = m
    · subst hk; exact .inr h3
    · exact .inl ⟨k, by omega, h2, h3, fun i h5 => h4 i (by omega)⟩
  · rintro ⟨⟨k, h1, h2, h3, h4⟩ | h1, h2⟩
    · rename_i h5
      refine ⟨k, by omega, h2, h3, fun i h6 h7 h8 => ?_⟩
      by_cases hi : i = m
      · subst hi; exact h5
      · exact h4 i (by omega) h7 h8
    · exact ⟨m, le_rfl, by omega, h1, fun i h6 h7 _ => by
        obtain rfl : i = m := by omega
        exact h2⟩

/-- How far a point has to be away from the contours of the layers. -/
def supportDepth (tan : ℚ) (o : Options) (tol D : ℚ) (count : Nat) : ℚ :=
  detectDepth tan o tol (D + 2 * (count + 1) * tol) + 3 / 2 * |(((toMicrometer o.print.support.gap).tdiv 2 : Int) : ℚ)|

/-- **C123** The columns of support at a point which is not near to the contours of the layers. -/
theorem C123_areas (hk : KeepsSides lib tol) (h0 : 0 ≤ tol) (hD : 0 ≤ D) {tan : ℚ} (hen : o.print.support.enabled = true) {g : Nat} (hg : o.print.support.topGapLayers = g)
    (hd : |supportDistance tan o| ≤ 2 ^ 53) (hgap : |toMicrometer o.print.support.gap| ≤ 2 ^ 53) {ls ls1 ls2 : List Layer} (h1 : supportDetector lib tan o ls = .ok ls1)
    (h2 : supportGenerator lib o ls1 = .ok ls2) (hno : ∀ l ∈ ls, l.attr "support" = none ∧ l.attr "fullSupport" = none ∧ l.attr "supportInterface" = none)
    (hla : ∀ l ∈ ls, ∀ p ∈ l.parts, LibArea lib (partContours p)) {m : Nat} (hm : m + 2 < ls.length) (hbrim : ∀ i l, m ≤ i → ls[i]? = some l → l.attr "outerBrim" = none)
    {ins : Nat → Prop} (hins : ∀ i l, m ≤ i → ls[i]? = some l → Shows (supportDepth tan o tol D ls.length) l.parts x (ins i)) :
    ∃ l, ls2[m]? = some l ∧ AttrShows D l "supportInterface" x (Column g ls.length ins m ∧ ¬ ColumnAbove o.print.support.interfaceLayers ls.length (Column g ls.length ins) m) ∧
      AttrShows D l "support" x (Column g ls.length ins m ∧ ColumnAbove o.print.support.interfaceLayers ls.length (Column g ls.length ins) m) := by
  have hsame := C61_detector lib tan o ls ls1 h1
  have hlen : ls1.length = ls.length := hsame.length_eq.symm
  have hat : ∀ (i : Nat) (l1 : Layer), ls1[i]? = some l1 → ∃ l, ls[i]? = some l ∧ SameBut ["support"] l l1 := by
    intro i l1 hi
    obtain ⟨hi', rfl⟩ := List.getElem?_eq_some_iff.1 hi
    have hi2 : i < ls.length := hlen ▸ hi'
    exact ⟨_, List.getElem?_eq_getElem hi2, List.forall₂_iff_get.1 hsame |>.2 i hi2 hi'⟩
  have hNt : (0 : ℚ) ≤ 2 * (ls.length + 1) * tol := by positivity
  have b1 := abs_nonneg (((toMicrometer o.print.support.gap).tdiv 2 : Int) : ℚ)
  have b2 := abs_nonneg (r64 (((toMicrometer o.print.support.patternSpacing * 3).tdiv 2 : Int) : ℚ))
  have b3 := abs_nonneg (((supportDistance tan o).tdiv 2 : Int) : ℚ)
  -- what is detected
  have hdet : ∀ i l, m ≤ i → ls1[i]? = some l → AttrShows (D + 2 * (ls.length + 1) * tol) l "support" x (Overhang g ls.length ins i) := by
    intro i l hi hl
    obtain ⟨l0, hl0, hs⟩ := hat i l hl
    by_cases hil : i + g + 1 < ls.length
    · obtain ⟨below, hb⟩ : ∃ b, ls[i + g]? = some b := ⟨_, List.getElem?_eq_getElem (by omega)⟩
      obtain ⟨above, ha⟩ : ∃ b, ls[i + g + 1]? = some b := ⟨_, List.getElem?_eq_getElem (by omega)⟩
      obtain ⟨support, l', e1, e2, e3⟩ := (C86_detected lib tan o g hg hen ls ls1 h1 i).2 below above l0 hb ha hl0 (hno l0 (List.mem_of_getElem? hl0)).1
      rw [hl] at e2
      cases e2
      intro ps hps
      rw [partsAttribute_of e3] at hps
      cases hps
      have depth : detectDepth tan o tol (D + 2 * (ls.length + 1) * tol) ≤ supportDepth tan o tol D ls.length := by unfold supportDepth; linarith
      have depth0 : 0 ≤ detectDepth tan o tol (D + 2 * (ls.length + 1) * tol) := by unfold detectDepth; linarith
      refine (detect_shows hk h0 (by linarith) hd e1 (hla below (List.mem_of_getElem? hb)) ((hins _ above (by omega) ha).mono depth0 depth)
        ((hins _ below (by omega) hb).mono depth0 depth)).congr ?_
      unfold Overhang
      tauto
    · rw [(C86_detected lib tan o g hg hen ls ls1 h1 i).1 (by omega), hl0] at hl
      cases hl
      exact attrShows_none (hno _ (List.mem_of_getElem? hl0)).1 fun h => hil h.1
  unfold supportGenerator at h2
  rw [if_pos hen] at h2
  have := generatorLoop_shows hk h0 hD (x := x) (o := o) (ls := ls1) (col := Column g ls.length ins) (det := Overhang g ls.length ins) (big := ins) (m := m)
    (fun i hi => column_step (by omega)) (fun l hl => by
      obtain ⟨i, hi⟩ := List.mem_iff_getElem?.1 hl
      obtain ⟨l0, h3, h4⟩ := hat i l hi
      rw [h4.2 _ (by simp), h4.2 _ (by simp)]
      exact (hno l0 (List.mem_of_getElem? h3)).2)
    (fun i l hi hl => by
      obtain ⟨l0, h3, h4⟩ := hat i l hl
      rw [h4.2 _ (by simp)]
      exact hbrim i l0 hi h3)
    (fun i l hi _ hl => by rw [hlen]; exact hdet i l hi hl)
    (fun i l hi _ hl => by
      obtain ⟨l0, h3, h4⟩ := hat i l hl
      rw [hlen]
      refine bigger_shows hk (by linarith) hgap (fun p hp => hla l0 (List.mem_of_getElem? h3) p (by rw [← h4.1]; exact hp)) ?_
      rw [h4.1]
      exact (hins i l0 hi h3).mono (by linarith) (by unfold supportDepth detectDepth; linarith)) h2 rfl (by omega) (fun _ _ => rfl) (fun _ _ => rfl)
    (fun i l h1 h2 => by omega) (fun layer c h1 h2 => by
      unfold currentSupport at h2
      rw [if_pos rfl] at h2
      have hcast : ((ls1.length - 2 : Nat) : ℚ) + 1 ≤ ls.length + 1 := by exact_mod_cast (by omega : ls1.length - 2 + 1 ≤ ls.length + 1)
      have hle := mul_le_mul_of_nonneg_right hcast h0
      have hp : (0 : ℚ) ≤ (((ls1.length - 2 : Nat) : ℚ) + 1) * tol := by positivity
      refine ((hdet _ layer (by omega) h1 c h2).mono (by linarith) (by linarith)).congr ⟨fun h => ⟨_, le_rfl, by omega, h, fun i h3 h4 h5 => by omega⟩, ?_⟩
      rintro ⟨k, k1, k2, k3, -⟩
      obtain rfl : k = ls1.length - 2 := by omega
      exact k3) (by omega)
  rw [hlen] at this
  exact this

end
end Verif
