import Verif.Props.Nothing
import Verif.Props.Inside
import Verif.Props.Filled
import Verif.Props.Region
import Verif.Spec.Accuracy

/-! # C113: walls keep their distance from the outline -/
namespace Verif
open Verif.Go Verif.Model Verif.Spec Verif.Spec.GCode

/-! ## Simplified paths stay near the path -/

/-- A row of numbers which starts below and ends above `t` passes it between two neighbours. -/
theorem passes_between {α : Type} (f : α → ℚ) (t : ℚ) (ps : List α) : ∀ p : α, f p ≤ t → ps ≠ [] → t ≤ f (ps.getLastD p) →
    ∃ uv ∈ (p :: ps).zip ps, f uv.1 ≤ t ∧ t ≤ f uv.2 := by
  induction ps with
  | nil => intro p _ h; exact absurd rfl h
  | cons q ps ih =>
    intro p hp _ hl
    rw [List.zip_cons_cons]
    rcases le_total t (f q) with hq | hq
    · exact ⟨(p, q), List.mem_cons_self, hp, hq⟩
    · rw [List.getLastD_cons] at hl
      cases ps with
      | nil => exact ⟨(p, q), List.mem_cons_self, hp, hl⟩
      | cons r rs =>
        obtain ⟨uv, h1, h2⟩ := ih q hq (by simp) hl
        exact ⟨uv, List.mem_cons_of_mem _ h1, h2⟩

theorem sq_convex {a b s B : ℚ} (h0 : 0 ≤ s) (h1 : s ≤ 1) (ha : a ^ 2 ≤ B) (hb : b ^ 2 ≤ B) : ((1 - s) * a + s * b) ^ 2 ≤ B := by
  have e : ((1 - s) * a + s * b) ^ 2 = (1 - s) * a ^ 2 + s * b ^ 2 - s * (1 - s) * (a - b) ^ 2 := by ring
  have := mul_nonneg (mul_nonneg h0 (sub_nonneg.2 h1)) (sq_nonneg (a - b))
  nlinarith [mul_le_mul_of_nonneg_left ha (sub_nonneg.2 h1), mul_le_mul_of_nonneg_left hb h0]

/-- Each point of the line between two kept points is within `d` of the dropped lines. -/
theorem near_dropped {d : ℚ} (hd : 0 ≤ d) (a b : Pt) (mid : List Pt) (h : ∀ p ∈ mid, lineDist2 a b p ≤ d ^ 2) {x : ℚ × ℚ}
    (hx : OnSegment (exactPt a) (exactPt b) x) :
    ∃ uv ∈ (a :: (mid ++ [b])).zip (mid ++ [b]), ∃ y, OnSegment (exactPt uv.1) (exactPt uv.2) y ∧ NearPt d x y := by
  obtain ⟨t, ht0, ht1, rfl⟩ := hx
  by_cases hab : a = b
  · subst hab
    obtain ⟨q, qs, hq⟩ : ∃ q qs, mid ++ [a] = q :: qs := by cases mid <;> simp
    refine ⟨(a, q), by rw [hq, List.zip_cons_cons]; exact List.mem_cons_self, exactPt a, ⟨0, le_rfl, zero_le_one, by simp [lineAt]⟩, ?_⟩
    have : lineAt (exactPt a) (exactPt a) t = exactPt a := by simp [lineAt]
    rw [this]
    exact .refl hd _
  · set X : ℚ := b.x - a.x with hX
    set Y : ℚ := b.y - a.y with hY
    have hL : 0 < X ^ 2 + Y ^ 2 := by
      by_contra hc
      have h1 : X = 0 := by nlinarith [sq_nonneg X, sq_nonneg Y]
      have h2 : Y = 0 := by nlinarith [sq_nonneg X, sq_nonneg Y]
      have h3 : b.x - a.x = 0 := by rw [hX] at h1; exact_mod_cast h1
      have h4 : b.y - a.y = 0 := by rw [hY] at h2; exact_mod_cast h2
      apply hab
      cases a; cases b
      simp only [Pt.mk.injEq] at *
      omega
    let f : Pt → ℚ := fun p => (p.x - a.x) * X + (p.y - a.y) * Y
    let g : Pt → ℚ := fun p => X * (p.y - a.y) - Y * (p.x - a.x)
    have hfa : f a = 0 := by simp [f]
    have hfb : f b = X ^ 2 + Y ^ 2 := by simp only [f, X, Y]; ring
    obtain ⟨⟨u, v⟩, huv, h1, h2⟩ := passes_between f (t * (X ^ 2 + Y ^ 2)) (mid ++ [b]) a (by rw [hfa]; positivity) (by simp)
      (by rw [List.getLastD_eq_getLast?]; simp only [List.getLast?_append, List.getLast?_singleton, Option.some_or, Option.getD_some]; rw [hfb]; nlinarith)
    simp only at h1 h2
    have hg : ∀ p ∈ a :: (mid ++ [b]), g p ^ 2 ≤ d ^ 2 * (X ^ 2 + Y ^ 2) := by
      intro p hp
      simp only [List.mem_cons, List.mem_append, List.not_mem_nil, or_false] at hp
      rcases hp with rfl | hp | rfl
      · simp only [g, sub_self, mul_zero]; positivity
      · have := h p hp
        unfold lineDist2 at this
        rw [if_neg hab, div_le_iff₀ (by push_cast; exact hL)] at this
        push_cast at this
        exact this
      · have : g p = 0 := by simp only [g, X, Y]; ring
        rw [this]; positivity
    have hu := hg u (List.of_mem_zip huv).1
    have hv := hg v (List.mem_cons_of_mem _ (List.of_mem_zip huv).2)
    obtain ⟨s, hs0, hs1, hs⟩ : ∃ s, 0 ≤ s ∧ s ≤ 1 ∧ f u + s * (f v - f u) = t * (X ^ 2 + Y ^ 2) := by
      rcases (h1.trans h2).eq_or_lt with he | hlt
      · exact ⟨0, le_rfl, zero_le_one, by linarith⟩
      · have hpos : 0 < f v - f u := by linarith
        refine ⟨(t * (X ^ 2 + Y ^ 2) - f u) / (f v - f u), div_nonneg (by linarith) hpos.le, (div_le_one hpos).2 (by linarith), ?_⟩
        field_simp
        ring
    refine ⟨(u, v), huv, lineAt (exactPt u) (exactPt v) s, ⟨s, hs0, hs1, rfl⟩, hd, ?_⟩
    have hconv := sq_convex hs0 hs1 hu hv
    -- the difference is perpendicular to the line
    set dx := (lineAt (exactPt a) (exactPt b) t).1 - (lineAt (exactPt u) (exactPt v) s).1 with hdx
    set dy := (lineAt (exactPt a) (exactPt b) t).2 - (lineAt (exactPt u) (exactPt v) s).2 with hdy
    have e1 : dx * X + dy * Y = 0 := by
      have : dx * X + dy * Y = t * (X ^ 2 + Y ^ 2) - (f u + s * (f v - f u)) := by
        simp only [hdx, hdy, lineAt, exactPt, f, X, Y]; ring
      rw [this, hs, sub_self]
    have e2 : X * dy - Y * dx = -((1 - s) * g u + s * g v) := by
      simp only [hdx, hdy, lineAt, exactPt, g, X, Y]; ring
    have e3 : (dx ^ 2 + dy ^ 2) * (X ^ 2 + Y ^ 2) ≤ d ^ 2 * (X ^ 2 + Y ^ 2) := by
      have : (dx ^ 2 + dy ^ 2) * (X ^ 2 + Y ^ 2) = (dx * X + dy * Y) ^ 2 + (X * dy - Y * dx) ^ 2 := by ring
      rw [this, e1, e2, neg_sq]
      simpa using hconv
    exact le_of_mul_le_mul_right e3 hL

/-- The lines of a closed path are those of the open one, and the one from the last to the first point. -/
theorem pathLines_closed (p : Pt) (rest : Path) : pathLines false (p :: rest) = pathLines true (p :: rest) ++ [(rest.getLastD p, p)] := by
  simp only [pathLines, Bool.false_eq_true, if_false, if_true, List.append_nil]
  generalize p = q
  suffices h : ∀ p : Pt, (p :: rest).zip (rest ++ [q]) = (p :: rest).zip rest ++ [(rest.getLastD p, q)] from h q
  induction rest with
  | nil => intro p; rfl
  | cons r rest ih => intro p; rw [List.cons_append, List.zip_cons_cons, ih, List.zip_cons_cons, List.getLastD_cons]; rfl

theorem thinned_near {d : ℚ} (hd : 0 ≤ d) {ok : Pt → Pt → Pt → Prop} (hok : ∀ a b p, ok a b p → lineDist2 a b p ≤ d ^ 2) {l r : Path} (h : Thinned ok l r)
    {x : ℚ × ℚ} (hx : OnPath true r x) : ∃ y, OnPath true l y ∧ NearPt d x y := by
  induction h with
  | single a => exact ⟨x, hx, .refl hd x⟩
  | step a b dropped rest res hdr _ ih =>
    obtain ⟨u, v, huv, hon⟩ := hx
    simp only [pathLines, if_true, List.append_nil, List.zip_cons_cons, List.mem_cons] at huv
    have hlines : pathLines true (a :: (dropped ++ b :: rest)) = (a :: (dropped ++ [b])).zip (dropped ++ [b]) ++ pathLines true (b :: rest) := by
      simp only [pathLines, if_true, List.append_nil]
      clear ih hdr huv
      induction dropped generalizing a with
      | nil => rfl
      | cons c dropped ih => simp only [List.cons_append, List.zip_cons_cons]; rw [ih]
    rcases huv with huv | huv
    · obtain ⟨rfl, rfl⟩ := Prod.mk.inj huv
      obtain ⟨uv, h1, y, h2, h3⟩ := near_dropped hd u v dropped (fun p hp => hok _ _ _ (hdr p hp)) hon
      exact ⟨y, ⟨uv.1, uv.2, by rw [hlines]; exact List.mem_append_left _ h1, h2⟩, h3⟩
    · obtain ⟨y, ⟨u', v', h1, h2⟩, h3⟩ := ih ⟨u, v, by simpa [pathLines] using huv, hon⟩
      exact ⟨y, ⟨u', v', by rw [hlines]; exact List.mem_append_right _ h1, h2⟩, h3⟩

/-- **C113** The drawn (simplified) path stays near the path: each of its points is at most 69 µm away from a point of the path. (For
paths with a diameter of at most 55.1 mm, because of C74. The converse does not hold: see `C113_spike`.) -/
theorem C113_simplified (path : Path) (hs : SmallPath path) (isOpen : Bool) (x : ℚ × ℚ) (hx : OnPath isOpen (douglasPeuckerM path (-1)) x) :
    ∃ y, OnPath isOpen path y ∧ NearPt 69 x y := by
  cases path with
  | nil =>
    obtain ⟨a, b, hab, -⟩ := hx
    have : douglasPeuckerM [] (-1) = [] := by decide +kernel
    rw [this] at hab
    simp [pathLines] at hab
  | cons p rest =>
    have ht := C06_int64 (p :: rest) (-1) (by simp) hs
    have hends := C05_int64_ends (p :: rest) (-1)
    simp only [if_true] at ht
    have hok : ∀ a b q : Pt, (1 ≤ (70 : Int) ∧ lineDist2 a b q ≤ ((70 - 1 : Int) : ℚ) ^ 2) → lineDist2 a b q ≤ 69 ^ 2 := by
      rintro a b q ⟨-, h⟩
      norm_num at h ⊢
      exact h
    cases isOpen with
    | true => exact thinned_near (by norm_num) hok ht hx
    | false =>
      cases hd : douglasPeuckerM (p :: rest) (-1) with
      | nil => rw [hd] at hends; simp at hends
      | cons q res =>
        rw [hd] at hends hx ht
        have hq : q = p := by simpa using hends.1
        subst hq
        obtain ⟨a, b, hab, hon⟩ := hx
        rw [pathLines_closed, List.mem_append, List.mem_singleton] at hab
        rcases hab with hab | hab
        · obtain ⟨y, ⟨u, v, huv, hy⟩, h2⟩ := thinned_near (by norm_num) hok ht ⟨a, b, hab, hon⟩
          exact ⟨y, ⟨u, v, by rw [pathLines_closed]; exact List.mem_append_left _ huv, hy⟩, h2⟩
        · obtain ⟨rfl, rfl⟩ := Prod.mk.inj hab
          refine ⟨x, ⟨rest.getLastD b, b, ?_, ?_⟩, .refl (by norm_num) x⟩
          · rw [pathLines_closed]; exact List.mem_append_right _ (by simp)
          · have : rest.getLastD b = res.getLastD b := by
              have := hends.2
              rw [List.getLastD_eq_getLast?, List.getLastD_eq_getLast?]
              cases rest with
              | nil =>
                cases res with
                | nil => rfl
                | cons r rs => simp [List.getLast?_cons] at this ⊢; first | exact this | exact this.symm
              | cons r rs =>
                cases res with
                | nil => simp [List.getLast?_cons] at this ⊢; first | exact this | exact this.symm
                | cons r' rs' => simp [List.getLast?_cons] at this ⊢; first | exact this | exact this.symm
            rwa [this]

/-- The converse does not hold: here the second point is dropped, although it is more than 49.9 mm away from everything that is drawn (the
distance is measured to the line through the kept points, not to the drawn part of it). -/
theorem C113_spike : douglasPeuckerM [⟨0, 0⟩, ⟨50000, 8⟩, ⟨50, 0⟩] (-1) = [⟨0, 0⟩, ⟨50, 0⟩] ∧ SmallPath [⟨0, 0⟩, ⟨50000, 8⟩, ⟨50, 0⟩] ∧
    ∀ x, OnPath true [⟨0, 0⟩, ⟨50, 0⟩] x → Apart 49900 x (exactPt ⟨50000, 8⟩) := by
  refine ⟨by rw [C74_small _ _ (by unfold SmallPath; decide)]; decide +kernel, by unfold SmallPath; decide, ?_⟩
  rintro x ⟨a, b, hab, t, h0, h1, rfl⟩
  simp only [pathLines, if_true, List.append_nil, List.zip_cons_cons, List.zip_nil_right, List.mem_singleton, Prod.mk.injEq] at hab
  obtain ⟨rfl, rfl⟩ := hab
  right
  simp only [lineAt, exactPt]
  push_cast
  nlinarith

/-! ## Distances from a set -/

theorem apart_of_near {D e : ℚ} {x y q : ℚ × ℚ} (h : Apart D x q) (hn : NearPt e x y) : Apart (D - e) y q := by
  by_contra hc
  unfold Apart at hc
  rw [not_or, not_le, not_le] at hc
  obtain ⟨h1, h2⟩ := hc
  have he := hn.1
  rcases h with h | h
  · linarith
  · have h3 := (abs_le.1 (inner_le hn.1 h1.le hn.2 h2.le)).2
    have e2 : (x.1 - q.1) ^ 2 + (x.2 - q.2) ^ 2 = ((x.1 - y.1) ^ 2 + (x.2 - y.2) ^ 2) + ((y.1 - q.1) ^ 2 + (y.2 - q.2) ^ 2) +
      2 * ((x.1 - y.1) * (y.1 - q.1) + (x.2 - y.2) * (y.2 - q.2)) := by ring
    rw [e2] at h
    nlinarith [hn.2]

theorem apart_mono {D D' : ℚ} {x q : ℚ × ℚ} (h : Apart D x q) (hD : D' ≤ D) : Apart D' x q := by
  rcases le_total D' 0 with h0 | h0
  · exact .inl h0
  · rcases h with h | h
    · exact .inl (hD.trans h)
    · exact .inr ((pow_le_pow_left₀ h0 hD 2).trans h)

section
variable {inside : List IntPoint → Set (ℚ × ℚ)} {lib : ClipperLib} {tol : ℚ}

/-- The parts of a result are its areas. -/
theorem isArea_part {tree : List PolyNode} {p : LayerPart} (hp : p ∈ polyTreeToLayerParts tree) : IsArea tree (partContours p) := by
  obtain ⟨root, hr, n, hn, h1, h2⟩ := C38_parent tree p hp
  refine ⟨root, hr, n, hn, ?_⟩
  unfold partContours asPath at *
  rw [List.map_cons, h1, h2, List.map_map]
  refine List.cons_eq_cons.2 ⟨?_, ?_⟩
  · exact List.map_id' _
  · rw [List.map_map]
    refine List.map_congr_left fun c _ => ?_
    simp only [Function.comp_apply, List.map_map]
    exact List.map_id' _

/-- The parts of the sliced layers are areas of results of the library. -/
theorem sliced_areas {o : Options} {om : OptModel} {ls : List Layer} (h : slice lib o om = .ok ls) : ∀ l ∈ ls, ∀ p ∈ l.parts, LibArea lib (partContours p) := by
  obtain ⟨layers, -, h⟩ := bind_ok.1 h
  have h := mapM_ok.1 h
  intro l hl p hp
  obtain ⟨i, hi, rfl⟩ := List.getElem_of_mem hl
  have hfin := (List.forall₂_iff_get.1 h).2 i (by rw [h.length_eq]; exact hi) hi
  simp only [List.get_eq_getElem] at hfin
  generalize ls[i] = l at *
  cases hx : layers[i]'(by rw [h.length_eq]; exact hi) with
  | none => rw [hx] at hfin; cases hfin
  | some layer =>
    rw [hx, finishLayer] at hfin
    obtain ⟨polygons, -, hfin⟩ := bind_ok.1 hfin
    obtain ⟨r, hr, hfin⟩ := bind_ok.1 hfin
    cases r with
    | none => cases hfin
    | some parts =>
      cases hfin
      obtain ⟨simple, -, hr⟩ := bind_ok.1 hr
      split at hr
      · cases hr; cases hp
      · cases he : lib.execute .union (clipperPaths simple) [] with
        | none => rw [he] at hr; cases hr
        | some tree =>
          rw [he] at hr
          cases hr
          exact ⟨tree, .inl ⟨_, _, _, he⟩, isArea_part hp⟩

/-- **C113** A drawn wall at the inset `d` of a part keeps at least the distance `d - 69 µm` (minus the tolerance of the library) from everything outside of the part. -/
theorem C113_inset (hk : InsetsKeep inside lib tol) (part : LayerPart) (hpart : LibArea lib (partContours part)) {d : ℚ} (hd : 0 ≤ d) {p : LayerPart} (hp : p ∈ lib.inset1 part (-d)) {contour : Path}
    (hc : contour ∈ p.holes ++ [p.outline]) (hs : SmallPath contour) {x : ℚ × ℚ} (hx : OnPath false (douglasPeuckerM contour (-1)) x)
    {q : ℚ × ℚ} (hq : q ∉ region inside [part]) : Apart (d - tol - 69) x q := by
  obtain ⟨y, hy, hn⟩ := C113_simplified contour hs false x hx
  refine apart_of_near (x := y) ?_ hn.symm
  have hmem : (contour.map fun q => (⟨q.x, q.y⟩ : IntPoint)) ∈ treesContours (lib.offset (partContours part) (-d)) := by
    refine (polyTree_contours _).mem_iff.1 (List.mem_flatMap.2 ⟨p, hp, ?_⟩)
    refine List.mem_map.2 ⟨contour, ?_, rfl⟩
    simp only [List.mem_append, List.mem_cons, List.not_mem_nil, or_false] at hc ⊢
    exact hc.symm
  refine hk (partContours part) d hpart hd _ hmem y ?_ q ?_
  · have : ((contour.map fun q => (⟨q.x, q.y⟩ : IntPoint)).map fun p => (⟨p.x, p.y⟩ : Pt)) = contour := by
      rw [List.map_map]
      exact List.map_id' contour
    rw [this]
    exact hy
  · simpa [region] using hq

/-- The walls of a layer: each belongs to a part and to an inset of half a line width and a number of whole ones. -/
theorem wall_of {o : Options} (hw : 0 < o.printer.extrusionWidth) (hw' : o.printer.extrusionWidth < 2 ^ 31) (hc : o.print.insetCount < 2 ^ 20)
    {parts : List LayerPart} {p : LayerPart} (hp : p ∈ (perimetersOf lib o parts).flatten.flatten) :
    ∃ part ∈ parts, ∃ k : Nat, (k : Int) < o.print.insetCount ∧
      p ∈ lib.inset1 part (-((o.printer.extrusionWidth / 2 + k * o.printer.extrusionWidth : Int) : ℚ)) := by
  obtain ⟨ps, hps, hp⟩ := List.mem_flatten.1 hp
  obtain ⟨w, hw2, hps⟩ := List.mem_flatten.1 hps
  obtain ⟨part, hpart, rfl⟩ := List.mem_map.1 hw2
  obtain ⟨k, hk, rfl⟩ := List.mem_iff_getElem.1 hps
  have hlen := C39_count lib part o.printer.extrusionWidth o.print.insetCount ((-o.printer.extrusionWidth).tdiv 2)
  have hkc : (k : Int) < o.print.insetCount := by omega
  have h := C39_perimeters lib part o.printer.extrusionWidth o.print.insetCount hw hw' hc k hkc
  rw [List.getElem?_eq_getElem hk, Option.some.injEq] at h
  refine ⟨part, hpart, k, hkc, ?_⟩
  rw [h] at hp
  have e : -((o.printer.extrusionWidth / 2 + k * o.printer.extrusionWidth : Int) : ℚ) =
      ((-(o.printer.extrusionWidth / 2) - k * o.printer.extrusionWidth : Int) : ℚ) := by push_cast; ring
  rw [e]
  exact hp

/-! ## The moves of the machine -/

/-- Between two printed positions the machine is within 7.3 µm of the line. -/
theorem passes_near {m m' : Machine} {a b : Pt} {z z' : Int} (ha : At m a z) (hb : At m' b z') (h1 : |a.x| ≤ 10 ^ 6) (h2 : |a.y| ≤ 10 ^ 6) (h3 : |b.x| ≤ 10 ^ 6)
    (h4 : |b.y| ≤ 10 ^ 6) {x : ℚ × ℚ} (hx : Passes m m' x) : ∃ y, OnSegment (exactPt a) (exactPt b) y ∧ NearPt (73 / 10) x y := by
  obtain ⟨ax, ay, bx, by', e1, e2, e3, e4, t, h0, ht1, rfl⟩ := hx
  obtain ⟨a1, a2, -⟩ := ha
  obtain ⟨b1, b2, -⟩ := hb
  rw [a1] at e1; rw [a2] at e2; rw [b1] at e3; rw [b2] at e4
  obtain rfl := Option.some.inj e1
  obtain rfl := Option.some.inj e2
  obtain rfl := Option.some.inj e3
  obtain rfl := Option.some.inj e4
  refine ⟨_, ⟨t, h0, ht1, rfl⟩, by norm_num, ?_⟩
  have c1 := C22_accuracy a.x h1
  have c2 := C22_accuracy a.y h2
  have c3 := C22_accuracy b.x h3
  have c4 := C22_accuracy b.y h4
  have conv : ∀ u v u' v' : ℚ, |u * 1000 - u'| ≤ 51 / 10 → |v * 1000 - v'| ≤ 51 / 10 →
      (1000 * u + t * (1000 * v - 1000 * u) - (u' + t * (v' - u'))) ^ 2 ≤ (51 / 10) ^ 2 := by
    intro u v u' v' hu hv
    have := sq_convex h0 ht1 (sq_le_sq' (abs_le.1 hu).1 (abs_le.1 hu).2) (sq_le_sq' (abs_le.1 hv).1 (abs_le.1 hv).2)
    refine le_trans (le_of_eq ?_) this
    ring
  have k1 := conv _ _ _ _ c1 c3
  have k2 := conv _ _ _ _ c2 c4
  simp only [lineAt, exactPt]
  linarith

/-- The perimeters of the layers which are printed are those of the sliced layers. -/
theorem final_perimeters {tan : ℚ} {o : Options} (hi : 1 ≤ o.print.insetCount) {ls ls' : List Layer}
    (h : (standardModifiers lib tan o).foldlM (fun ls m => m ls) ls = .ok ls') (n : Nat) (l' : Layer) (hl : ls'[n]? = some l') :
    ∃ l, ls[n]? = some l ∧ l'.parts = l.parts ∧ l'.perimeters = .ok (perimetersOf lib o l.parts) := by
  simp only [standardModifiers, List.foldlM_cons, List.foldlM_nil, bind_ok, pure, Except.pure, Except.ok.injEq] at h
  obtain ⟨l1, h1, l2, h2, l3, h3, l4, h4, l5, h5, l6, h6, rfl⟩ := h
  have hsame : SameLayersBut ["bottom", "top", "infill", "brim", "outerBrim", "fullSupport", "supportInterface", "support"] l1 l6 :=
    ((C61_infill _ _ _ _ h2).mono (by simp)).trans <| ((C61_internal _ _ _ _ h3).mono (by simp)).trans <| ((C61_brim _ _ _ _ h4).mono (by simp)).trans <|
      ((C61_detector _ _ _ _ _ h5).mono (by simp)).trans ((C61_generator _ _ _ _ h6).mono (by simp))
  obtain ⟨hlen, hget⟩ := List.forall₂_iff_get.1 hsame
  obtain ⟨hn, rfl⟩ := List.getElem?_eq_some_iff.1 hl
  have hs := hget n (by omega) hn
  obtain ⟨l, g1, g2, -, g3, -⟩ := perimeterModifier_get lib o ls l1 hi h1 n (l1[n]'(by omega)) (List.getElem?_eq_getElem _)
  simp only [List.get_eq_getElem] at hs
  refine ⟨l, g1, hs.1.trans g2, ?_⟩
  rw [← g3]
  unfold Layer.perimeters
  rw [hs.2 "perimeters" (by simp)]

end

/-! ## C113 for the program -/

/-- The contour has a diameter of at most 55.1 mm and is not more than 1 m away from the origin. -/
structure Ordinary (contour : Path) : Prop where
  small : SmallPath contour
  near : ∀ p ∈ contour, |p.x| ≤ 10 ^ 6 ∧ |p.y| ≤ 10 ^ 6

/-- Each point on a printed line of a wall with inset number `k` of a part keeps the distance `w / 2 + k * w - 76.3 µm` (minus the tolerance of the library)
from everything outside of the part. -/
def WallKeeps (inside : List IntPoint → Set (ℚ × ℚ)) (o : Options) (tol : ℚ) (part : LayerPart) (m m' : Machine) : Prop :=
  ∃ k : Nat, (k : Int) < o.print.insetCount ∧ ∀ x, Passes m m' x → ∀ q, q ∉ region inside [part] →
    Apart (((o.printer.extrusionWidth / 2 + k * o.printer.extrusionWidth : Int) : ℚ) - tol - 763 / 10) x q

/-- A path of layer `n` which is no wall. -/
def NoWall (lib : ClipperLib) (o : Options) (pt : Patterns) (n : Nat) (l : Layer) (isOpen : Bool) (path : Path) : Prop :=
  (isOpen = false ∧ ∃ brim, l.brim = .ok brim ∧ ∃ p ∈ brim.flatten.flatten, path = p.outline) ∨
  (isOpen = false ∧ n = 0 ∧ o.print.brimSkirt.skirtCount ≠ 0 ∧ ∃ walls support, l.perimeters = .ok walls ∧ l.fullSupport = .ok support ∧
    ∃ p ∈ (skirtLines lib o support walls).flatten, path = p.outline) ∨
  (isOpen = true ∧ ∃ fill name, (some fill, name) ∈ infillKinds pt ∧ ∃ parts, l.partsAttribute name = .ok parts ∧ ∃ part ∈ parts,
    ∃ lines, fill n part = .ok lines ∧ path ∈ lines)

/-- **C113** In the G-code of the program, each move which extrudes (and moves in x or y) is a line of a wall of a part of the sliced layer, and keeps its distance
from everything outside of this part; or it belongs to the brim, the skirt or a pattern. -/
theorem C113_program (inside : List IntPoint → Set (ℚ × ℚ)) (ext : Externals) (o : Options) (content t : Str) (h : gcodeOf ext o content = .ok t) {tol : ℚ}
    (hk : InsetsKeep inside ext.lib tol) (hw : 0 < o.printer.extrusionWidth) (hw' : o.printer.extrusionWidth < 2 ^ 31) (hi : 1 ≤ o.print.insetCount)
    (hc : o.print.insetCount < 2 ^ 20) :
    ∃ om sliced layers pt, optimize o ((ext.stl content).map stlTriangleToFace) = .ok om ∧ slice ext.lib o om = .ok sliced ∧
      (standardModifiers ext.lib ext.tan o).foldlM (fun ls m => m ls) sliced = .ok layers ∧ initPatterns ext.lib ext.trig o om = .ok pt ∧
      (layers ≠ [] → ∃ body m moves, t = startText o ++ body ++ endText o ∧ run body = some (m, moves) ∧
        ∀ (k : Nat) before line, moves[k]? = some before → moves[k + 1]? = some line → line.hasE = true →
          (before.after.x ≠ line.after.x ∨ before.after.y ≠ line.after.y) →
          ∃ n sl l, sliced[n]? = some sl ∧ layers[n]? = some l ∧ ∃ isOpen path a b, (a, b) ∈ pathLines isOpen (douglasPeuckerM path (-1)) ∧
            At before.after a (layerHeight o n) ∧ At line.after b (layerHeight o n) ∧
            ((∃ part ∈ sl.parts, Ordinary path → WallKeeps inside o tol part before.after line.after) ∨ NoWall ext.lib o pt n l isOpen path)) := by
  obtain ⟨om, sliced, layers, pt, g0, h1, h2, h3, h4, h5⟩ := gcodeOf_steps h
  refine ⟨om, sliced, layers, pt, h1, h2, h3, h4, fun hne => ?_⟩
  obtain ⟨body, m, moves, hb1, hb2, -, hb3⟩ := C112_only hne h5
  refine ⟨body, m, moves, hb1, hb2, fun k before line hbe hl he hmove => ?_⟩
  rcases hb3 k before line hbe hl he with ⟨e1, e2, -⟩ | ⟨n, l, isOpen, path, a, b, hn, hbel, hab, ha, hb⟩
  · exact (hmove.elim (fun h => h e1) (fun h => h e2)).elim
  · obtain ⟨sl, hsl, -, hper⟩ := final_perimeters hi h3 n l hn
    refine ⟨n, sl, l, hsl, hn, isOpen, path, a, b, hab, ha, hb, ?_⟩
    rcases hbel with ⟨rfl, walls, hwalls, p, hp, hpath⟩ | hbel
    · rw [hper] at hwalls
      have hwalls := Except.ok.inj hwalls
      subst hwalls
      obtain ⟨part, hpart, i, hic, hpi⟩ := wall_of hw hw' hc hp
      refine .inl ⟨part, hpart, fun hord => ⟨i, hic, fun x hx q hq => ?_⟩⟩
      have hmem : a ∈ path ∧ b ∈ path := by
        have hsub := (C05_int64_subsequence path (-1)).subset
        cases hd : douglasPeuckerM path (-1) with
        | nil => rw [hd] at hab; simp [pathLines] at hab
        | cons p0 rest =>
          rw [hd] at hab hsub
          have := List.of_mem_zip hab
          refine ⟨hsub this.1, hsub ?_⟩
          have h2 := this.2
          simp only [Bool.false_eq_true, if_false, List.mem_append, List.mem_singleton] at h2
          rw [List.mem_cons]
          exact h2.symm
      obtain ⟨y, hy, hnear⟩ := passes_near ha hb (hord.near a hmem.1).1 (hord.near a hmem.1).2 (hord.near b hmem.2).1 (hord.near b hmem.2).2 hx
      have hd0 : (0 : ℚ) ≤ ((o.printer.extrusionWidth / 2 + i * o.printer.extrusionWidth : Int) : ℚ) := by
        have : 0 ≤ o.printer.extrusionWidth / 2 + i * o.printer.extrusionWidth := by positivity
        exact_mod_cast this
      have := C113_inset hk part (sliced_areas h2 sl (List.mem_of_getElem? hsl) part hpart) hd0 hpi hpath hord.small ⟨a, b, hab, hy⟩ hq
      exact apart_mono (apart_of_near this hnear.symm) (by linarith)
    · exact .inr hbel

/-! ## Examples -/

/-- The contour of a square. -/
def squareContour (lo hi : Int) : List IntPoint := [⟨lo, lo⟩, ⟨hi, lo⟩, ⟨hi, hi⟩, ⟨lo, hi⟩]

/-- A library which knows how to inset a square of 10 mm by 0.2 mm. -/
def insetSquare : ClipperLib :=
  { insideClipper with
    execute := fun _ s _ => some (if s = [squareContour 0 10000] then [.node (squareContour 0 10000) []] else [])
    offset := fun paths d => if paths = [squareContour 0 10000] ∧ d = -200 then [.node (squareContour 200 9800) []] else [] }

/-- The points enclosed by the square of 10 mm. -/
def inSquare (_ : List IntPoint) : Set (ℚ × ℚ) := {q | 0 ≤ q.1 ∧ q.1 ≤ 10000 ∧ 0 ≤ q.2 ∧ q.2 ≤ 10000}

theorem insetSquare_keeps : InsetsKeep inSquare insetSquare 0 := by
  intro paths d _ hd c hc x hx q hq
  simp only [insetSquare] at hc
  split at hc
  · rename_i hp
    obtain ⟨rfl, hd2⟩ := hp
    obtain rfl : d = 200 := by linarith
    simp only [treesContours, treeContours, List.append_nil, List.mem_singleton] at hc
    subst hc
    obtain ⟨a, b, hab, t, h0, h1, rfl⟩ := hx
    have hq' : ¬ (0 ≤ q.1 ∧ q.1 ≤ 10000 ∧ 0 ≤ q.2 ∧ q.2 ≤ 10000) := by
      intro h
      apply hq
      have : crossings inSquare [squareContour 0 10000] q = 1 := by
        unfold crossings
        rw [List.countP_singleton, if_pos (@decide_eq_true _ (Classical.propDecidable _) (show q ∈ inSquare (squareContour 0 10000) from h))]
      show Odd (crossings inSquare [squareContour 0 10000] q)
      rw [this]
      decide
    have hx : 200 ≤ (lineAt (exactPt a) (exactPt b) t).1 ∧ (lineAt (exactPt a) (exactPt b) t).1 ≤ 9800 ∧
        200 ≤ (lineAt (exactPt a) (exactPt b) t).2 ∧ (lineAt (exactPt a) (exactPt b) t).2 ≤ 9800 := by
      simp only [squareContour, pathLines, List.map_cons, List.map_nil, Bool.false_eq_true, if_false, List.cons_append, List.nil_append, List.zip_cons_cons,
        List.zip_nil_right, List.mem_cons, Prod.mk.injEq, List.not_mem_nil, or_false] at hab
      rcases hab with ⟨rfl, rfl⟩ | ⟨rfl, rfl⟩ | ⟨rfl, rfl⟩ | ⟨rfl, rfl⟩ <;> simp only [lineAt, exactPt] <;> push_cast <;>
        refine ⟨?_, ?_, ?_, ?_⟩ <;> linarith
    generalize lineAt (exactPt a) (exactPt b) t = x at *
    right
    by_contra hc
    apply hq'
    have k1 : (x.1 - q.1) ^ 2 < 200 ^ 2 := by nlinarith [sq_nonneg (x.2 - q.2)]
    have k2 : (x.2 - q.2) ^ 2 < 200 ^ 2 := by nlinarith [sq_nonneg (x.1 - q.1)]
    have k1 := abs_lt.1 (abs_lt_of_sq_lt_sq k1 (by norm_num))
    have k2 := abs_lt.1 (abs_lt_of_sq_lt_sq k2 (by norm_num))
    refine ⟨?_, ?_, ?_, ?_⟩ <;> linarith [k1.1, k1.2, k2.1, k2.2]
  · simp [treesContours] at hc

theorem insetSquare_area : LibArea insetSquare (partContours ⟨[⟨0, 0⟩, ⟨10000, 0⟩, ⟨10000, 10000⟩, ⟨0, 10000⟩], []⟩) :=
  ⟨[.node (squareContour 0 10000) []], .inl ⟨.union, [squareContour 0 10000], [], by simp [insetSquare]⟩, _, List.mem_singleton.2 rfl, _, .refl _, rfl⟩

/-- Non-vacuity: the wall of the square is printed at 0.2 mm from the border, which is at least 131 µm (200 - 69) away from all points outside. -/
example : (⟨[⟨200, 200⟩, ⟨9800, 200⟩, ⟨9800, 9800⟩, ⟨200, 9800⟩], []⟩ : LayerPart) ∈
      insetSquare.inset1 ⟨[⟨0, 0⟩, ⟨10000, 0⟩, ⟨10000, 10000⟩, ⟨0, 10000⟩], []⟩ (-200) ∧
    ∀ x, OnPath false (douglasPeuckerM [⟨200, 200⟩, ⟨9800, 200⟩, ⟨9800, 9800⟩, ⟨200, 9800⟩] (-1)) x →
      ∀ q ∉ region inSquare [⟨[⟨0, 0⟩, ⟨10000, 0⟩, ⟨10000, 10000⟩, ⟨0, 10000⟩], []⟩], Apart (200 - 0 - 69) x q := by
  have h : (⟨[⟨200, 200⟩, ⟨9800, 200⟩, ⟨9800, 9800⟩, ⟨200, 9800⟩], []⟩ : LayerPart) ∈
      insetSquare.inset1 ⟨[⟨0, 0⟩, ⟨10000, 0⟩, ⟨10000, 10000⟩, ⟨0, 10000⟩], []⟩ (-200) := by
    have e : insetSquare.offset [squareContour 0 10000] (-200) = [.node (squareContour 200 9800) []] := by simp [insetSquare]
    have := (polyTree_perm (insetSquare.offset [squareContour 0 10000] (-200))).symm.subset (a := nodePart (.node (squareContour 200 9800) []))
      (by rw [e]; exact List.mem_flatMap.2 ⟨_, List.mem_singleton.2 rfl, by rw [treeParts_eq]; exact List.mem_cons_self⟩)
    exact this
  refine ⟨h, fun x hx q hq => C113_inset insetSquare_keeps _ insetSquare_area (by norm_num) h (by simp) ?_ hx hq⟩
  unfold SmallPath
  decide

/-- Non-vacuity: the hypotheses of the theorem about the program hold for the default options, the tetrahedron and this library. -/
example : ∃ t, gcodeOf { cornerExt with lib := insetSquare } {} [] = .ok t ∧ InsetsKeep inSquare insetSquare 0 ∧ 0 < ({} : Options).printer.extrusionWidth ∧
    ({} : Options).printer.extrusionWidth < 2 ^ 31 ∧ 1 ≤ ({} : Options).print.insetCount ∧ ({} : Options).print.insetCount < 2 ^ 20 := by
  have hm : cornerMesh = (cornerExt.stl []).map stlTriangleToFace := by decide +kernel
  have ho : OpenClipping insetSquare := by
    refine ⟨fun t s c => ⟨_, rfl⟩, ?_⟩
    intro s c tree h hs n hn
    simp only [insetSquare, insideClipper, if_true, Option.some.injEq] at h
    subst h
    obtain ⟨l, hl, rfl⟩ := List.mem_map.1 hn
    simp [PolyNode.contour, hs l hl]
  obtain ⟨t, ht⟩ := C90_gcode { cornerExt with lib := insetSquare } {} [] sensible_default (fun _ _ _ => rfl) ho cornerMesh hm (by decide) (by decide)
    (by unfold Separated; decide +kernel) corner_noGap (.inr rfl)
  exact ⟨t, ht, insetSquare_keeps, by decide, by decide, by decide, by decide⟩

end Verif
