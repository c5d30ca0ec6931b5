import Verif.Props.Whole

/-! # C98: the patterns for the kinds of infill -/
namespace Verif
open Verif.Go Verif.Model Verif.Spec

/-- **C98** The patterns are set up as documented:
the lines of support have the configured spacing and the same direction on all layers;
those of support interfaces are perpendicular to them and have no gaps;
those of top, bottom and internal infill have the configured direction on odd layers and the perpendicular one on even layers;
top and bottom have no gaps and no zig zag;
there is internal infill exactly if its percentage is not 0. The pattern for support covers the model and one spacing around it. -/
theorem C98_patterns (lib : ClipperLib) (trig : ℚ → ℚ × ℚ) (o : Options) (min max : Pt) (pt : Patterns) (h : standardPatterns lib trig o min max = .ok pt)
    (hdeg : |o.print.infillRotationDegree| ≤ 2 ^ 31) :
    ∃ (support interface solid : Linear) (internal : Option Linear),
      (pt.support = some (support.fill lib trig) ∧ pt.supportInterface = some (interface.fill lib trig) ∧ pt.bottom = some (solid.fill lib trig) ∧
        pt.top = some (solid.fill lib trig) ∧ pt.infill = internal.map fun p => p.fill lib trig) ∧
      (∀ n, support.rotation n = interface.rotation n + 90) ∧ (∀ n, support.rotation n = support.rotation 0) ∧
      (support.lineDistance = toMicrometer o.print.support.patternSpacing ∧ interface.lineDistance = interface.lineWidth ∧ solid.lineDistance = solid.lineWidth) ∧
      (support.min = ⟨min.x - support.lineDistance, min.y - support.lineDistance⟩ ∧ support.max = ⟨max.x + support.lineDistance, max.y + support.lineDistance⟩ ∧
        interface.min = support.min ∧ interface.max = support.max) ∧
      (support.zigZag = true ∧ interface.zigZag = true ∧ solid.zigZag = false) ∧
      (internal.isSome ↔ o.print.infillPercent ≠ 0) ∧
      (∀ p, p = solid ∨ internal = some p → p.min = min ∧ p.max = max ∧
        ∀ n, p.rotation n = o.print.infillRotationDegree + if n % 2 = 0 then 90 else 0) ∧
      (∀ p, internal = some p → p.zigZag = o.print.infillZigZag ∧ infillDistance o.printer.extrusionWidth o.print.infillPercent = .ok p.lineDistance) ∧
      ∀ p, p = support ∨ p = interface ∨ p = solid ∨ internal = some p → p.lineWidth = o.printer.extrusionWidth := by
  unfold standardPatterns at h
  obtain ⟨internal, hi, h⟩ := bind_ok.1 h
  have h := Except.ok.inj h
  subst h
  have rot : ∀ p : Linear, p.degree = o.print.infillRotationDegree → p.rectlinear = true →
      ∀ n, p.rotation n = o.print.infillRotationDegree + if n % 2 = 0 then 90 else 0 := by
    intro p hp hr n
    rw [C81_rotation p (by rw [hp]; exact hdeg), hp, hr]
    split <;> simp_all
  have rot0 : ∀ p : Linear, |p.degree| ≤ 2 ^ 31 → p.rectlinear = false → ∀ n, p.rotation n = p.degree := by
    intro p hp hr n
    rw [C81_rotation p hp, hr]
    simp
  have hint : (internal.isSome ↔ o.print.infillPercent ≠ 0) ∧ ∀ p, internal = some p → ∃ d, infillDistance o.printer.extrusionWidth o.print.infillPercent = .ok d ∧
      p = ⟨d, o.printer.extrusionWidth, o.print.infillRotationDegree, min, max, true, o.print.infillZigZag⟩ := by
    unfold internalPattern at hi
    split at hi
    · rename_i hp
      obtain ⟨d, hd, hi⟩ := bind_ok.1 hi
      have hi := Except.ok.inj hi
      subst hi
      exact ⟨by simp [hp], fun p hp => ⟨d, hd, (Option.some.inj hp).symm⟩⟩
    · rename_i hp
      have hi := Except.ok.inj hi
      subst hi
      exact ⟨by simpa using hp, fun p hp => nomatch hp⟩
  refine ⟨supportPattern o min max, interfacePattern o min max, topBottomPattern o min max, internal, ⟨rfl, rfl, rfl, rfl, rfl⟩, ?_, ?_, ⟨rfl, rfl, rfl⟩,
    ⟨rfl, rfl, rfl, rfl⟩, ⟨rfl, rfl, rfl⟩, ?_, ?_, ?_, ?_⟩
  · intro n
    rw [rot0 (supportPattern o min max) (show |(90 : Int)| ≤ 2 ^ 31 by decide) rfl, rot0 (interfacePattern o min max) (show |(0 : Int)| ≤ 2 ^ 31 by decide) rfl]
    norm_num [supportPattern, interfacePattern]
  · intro n
    rw [rot0 (supportPattern o min max) (show |(90 : Int)| ≤ 2 ^ 31 by decide) rfl, rot0 (supportPattern o min max) (show |(90 : Int)| ≤ 2 ^ 31 by decide) rfl]
  · exact hint.1
  · rintro p (rfl | hp)
    · exact ⟨rfl, rfl, rot _ rfl rfl⟩
    · obtain ⟨d, -, rfl⟩ := hint.2 p hp
      exact ⟨rfl, rfl, rot _ rfl rfl⟩
  · intro p hp
    obtain ⟨d, hd, rfl⟩ := hint.2 p hp
    exact ⟨rfl, hd⟩
  · rintro p (rfl | rfl | rfl | hp)
    · rfl
    · rfl
    · rfl
    · obtain ⟨d, -, rfl⟩ := hint.2 p hp
      rfl

/-- There are patterns for the default options. -/
example : ∃ pt, standardPatterns trivialLib (fun _ => (0, 1)) {} ⟨0, 0⟩ ⟨1000, 1000⟩ = .ok pt := by
  obtain ⟨pt, h, -⟩ := good_patterns sensible_default trivial_open (fun _ => (0, 1)) ⟨0, 0⟩ ⟨1000, 1000⟩
  exact ⟨pt, h⟩

end Verif
