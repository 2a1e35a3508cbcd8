import Verif.Proofs.TreeRayCast
import Verif.Props.DynamicTree
set_option linter.unusedSectionVars false

/-!
# Property C12: ray casts in the dynamic tree

`castOver` (Verif/Spec/Geom.lean) is what a ray cast should do with a list of candidates with known boxes.
-/
namespace B2.Props
open Spec
section
variable {F D : Type} [Field F] [LinearOrder F] [IsStrictOrderedRing F] [Elem F]

/-- **C12**: there is an order of the live proxies, the same for every ray and callback, such that a ray cast
between different points calls back for exactly the proxies whose stored fat box meets the current segment, in
that order: 0 ends the cast, a positive answer shortens the segment, a negative one changes nothing. Between
equal points the cast panics. The boxes handed in by the user are assumed not to be inverted. -/
theorem c12_ray_cast_exact {t : Tree F D} {g : Nat → Option (Proxy F D)} {peak : Nat} (h : Hist t g peak)
    (hvalid : ∀ i p, g i = some p → Valid p.box) :
    (∃ ids : List Nat, ids.Nodup ∧ (∀ i, i ∈ ids ↔ g i ≠ none) ∧
      ∀ (S : Type) (cb : S → RayIn F → Nat → S × F) (input : RayIn F) (s : S), input.p1 ≠ input.p2 →
        t.rayCast cb input s = some (castOver cb input.p1 input.p2 t.getFatAabb input.maxFraction s ids)) ∧
    ∀ (S : Type) (cb : S → RayIn F → Nat → S × F) (input : RayIn F) (s : S), input.p1 = input.p2 →
      t.rayCast cb input s = none := by
  have hi := histInv h
  constructor
  · obtain ⟨ids, h1, h2, h3⟩ := rayCast_spec hi.inv (fun i p hp => by
      obtain ⟨a1, a2, a3, a4⟩ := hi.covers i p hp
      obtain ⟨b1, b2⟩ := hvalid i p hp
      exact ⟨a1.trans (b1.trans a3), a2.trans (b2.trans a4)⟩)
    refine ⟨ids, h1, h2, fun S cb input s hne => ?_⟩
    rw [h3 S cb input s hne, Option.some_inj]
    refine castOver_congr cb _ _ _ _ ?_
    intro i hmem
    obtain ⟨p, hp⟩ := Option.ne_none_iff_exists'.mp ((h2 i).mp hmem)
    rw [hp, getFatAabb_of hi.inv hp]; rfl
  · intro S cb input s he
    unfold Tree.rayCast
    rw [he]
    simp [Vec2.lengthSquared]

/-- C12, the special case of a callback that answers with the fraction it was given: it is called for every live
proxy whose fat box the segment meets, and for no other, once. -/
theorem c12_full_cast {t : Tree F D} {g : Nat → Option (Proxy F D)} {peak : Nat} (h : Hist t g peak)
    (hvalid : ∀ i p, g i = some p → Valid p.box) (input : RayIn F) (hne : input.p1 ≠ input.p2) (hf : 0 < input.maxFraction) :
    ∃ calls : List Nat, t.rayCast (fun l inp i => (l ++ [i], inp.maxFraction)) input [] = some calls ∧ calls.Nodup ∧
      ∀ i, i ∈ calls ↔ ∃ fat, g i ≠ none ∧ t.getFatAabb i = some fat ∧
        SegMeets input.p1 (onLine input.p1 input.p2 input.maxFraction) fat := by
  obtain ⟨⟨ids, h1, h2, h3⟩, -⟩ := c12_ray_cast_exact h hvalid
  refine ⟨_, h3 _ _ input [] hne, ?_⟩
  classical
  have key : ∀ (l acc : List Nat), castOver (fun l inp i => (l ++ [i], inp.maxFraction)) input.p1 input.p2 t.getFatAabb
      input.maxFraction acc l = acc ++ l.filter (fun i => decide (∃ b, t.getFatAabb i = some b ∧
        SegMeets input.p1 (onLine input.p1 input.p2 input.maxFraction) b)) := by
    intro l
    induction l with
    | nil => intro acc; simp [castOver]
    | cons i l ih =>
      intro acc
      rw [castOver]
      by_cases hm : ∃ b, t.getFatAabb i = some b ∧ SegMeets input.p1 (onLine input.p1 input.p2 input.maxFraction) b
      · rw [if_pos hm]
        dsimp only
        rw [if_neg hf.ne', if_pos hf, ih, List.filter_cons, if_pos (decide_eq_true hm)]
        simp
      · rw [if_neg hm, ih, List.filter_cons, if_neg (by simpa using hm)]
  rw [key]
  refine ⟨by simpa using h1.filter _, fun i => ?_⟩
  simp only [List.nil_append, List.mem_filter, decide_eq_true_iff, h2]
  constructor
  · rintro ⟨a, b, c, d⟩; exact ⟨b, a, c, d⟩
  · rintro ⟨b, a, c, d⟩; exact ⟨a, b, c, d⟩

end

/-! A concrete case: the hypotheses hold for `ex5`, and casts along the x axis behave as stated. -/
section
/-- Any choice of the elementary functions will do; the cast only needs the direction. -/
local instance : Elem ℚ := ⟨fun x => x, fun x => x, fun x => x, fun x => x, 3⟩

example : ∃ g peak, Hist ex3.1 g peak ∧ (∃ i, g i ≠ none) ∧ ∀ i p, g i = some p → Valid p.box := by
  obtain ⟨g, peak, h, ⟨p0, h0, b0⟩, ⟨p1, h1, b1⟩, ⟨p3, h3, b3⟩, hall⟩ := ex3_hist
  refine ⟨g, peak, h, ⟨0, by simp [h0]⟩, fun i p hp => ?_⟩
  rcases hall i p hp with rfl | rfl | rfl
  · rw [h0] at hp; cases hp; rw [b0]; constructor <;> simp [exBox]
  · rw [h1] at hp; cases hp; rw [b1]; constructor <;> simp [exBox, exHalf]
  · rw [h3] at hp; cases hp; rw [b3]; constructor <;> simp [exBox]

example :
    ex3.1.rayCast (fun l inp i => (l ++ [i], inp.maxFraction)) ⟨⟨-1, 0⟩, ⟨20, 0⟩, 1⟩ [] = some [3, 1, 0] ∧
    ex3.1.rayCast (fun l _ i => (l ++ [i], 1/12)) ⟨⟨-1, 0⟩, ⟨20, 0⟩, 1⟩ [] = some [3, 1, 0] ∧
    ex3.1.rayCast (fun l _ i => (l ++ [i], 1/20)) ⟨⟨-1, 0⟩, ⟨20, 0⟩, 1⟩ [] = some [3, 0] ∧
    ex3.1.rayCast (fun l _ i => (l ++ [i], 0)) ⟨⟨-1, 0⟩, ⟨20, 0⟩, 1⟩ [] = some [3] ∧
    ex3.1.rayCast (fun l _ i => (l ++ [i], -1)) ⟨⟨5, 5⟩, ⟨20, -5⟩, 1⟩ [] = some [] := by
  decide +kernel
end

end B2.Props
