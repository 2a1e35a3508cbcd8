import Verif.Proofs.WorldShift
import Verif.Props.WorldQuery

/-!
# C131: moving the origin of a world changes the point of view and nothing else
-/
set_option linter.unusedSectionVars false
namespace B2.Props
open B2 Spec World

section
variable {F : Type} [Field F] [LinearOrder F] [IsStrictOrderedRing F] [Elem F]

/-- C131, first part. In any reachable world that is not locked `shift_origin` succeeds. Every body is then where it was, seen from the new origin: position
and centre of mass (before and after the last step) less the new origin, and the rest of the body as it was. The fat boxes move along. Apart from bodies
and tree nothing changes. -/
theorem c131_view {env : Env F} {w : World F} (h : WHist env w) (hl : w.locked = false) (o : Vec2 F) :
    ∃ w', w.shiftOrigin o = some w' ∧ WHist env w' ∧ { w' with phys := w.phys, bp := w.bp } = w ∧ { w'.bp with tree := w.bp.tree } = w.bp ∧
      (∀ b ∈ w.g.bodyList, w'.phys b = { w.phys b with
        xf := ⟨(w.phys b).xf.p - o, (w.phys b).xf.q⟩
        sweep := { (w.phys b).sweep with c0 := (w.phys b).sweep.c0 - o, c := (w.phys b).sweep.c - o } }) ∧
      ∀ c fat, Child w c → (FatOf w c fat ↔ FatOf w' c (shift o fat)) := by
  have hw := (whist_inv h).toWInv
  obtain ⟨w', e, hw', -, -, hg, hbp, -⟩ := shiftOrigin_spec' (env := env) o hw hl
  refine ⟨w', e, h.call (.shiftOrigin o) trivial e, shiftOrigin_rest e, by rw [hbp]; rfl, shiftOrigin_phys hw.body.nodup e, fun c fat hc => ?_⟩
  obtain ⟨gh, buf, rep, pi⟩ := hw.prox
  obtain ⟨peak, hh⟩ := (bhistInv pi.hist).hist
  obtain ⟨id, p, a1, a2, a3⟩ := pi.has c.1 c.2 ((live_iff_child hw).mpr hc)
  have hlt : id < w.bp.tree.cap := by
    obtain ⟨T, hi⟩ := (histInv hh).inv
    exact hi.lt (by rw [a2]; simp)
  have hn : w'.bp.tree.getFatAabb id = (w.bp.tree.getFatAabb id).map (shift o) := by
    rw [hbp]
    show (w.bp.tree.shiftOrigin o).getFatAabb id = _
    simp only [Tree.getFatAabb]
    rw [Tree.get_of_lt (t := w.bp.tree.shiftOrigin o) hlt, Tree.get_of_lt hlt, shiftOrigin_nodes _ _ hlt]
    rfl
  have inj : ∀ a b : AABB F, shift o a = shift o b → a = b := by
    intro a b hab
    have h1 := congrArg (fun x : AABB F => x.lo.x) hab
    have h2 := congrArg (fun x : AABB F => x.lo.y) hab
    have h3 := congrArg (fun x : AABB F => x.hi.x) hab
    have h4 := congrArg (fun x : AABB F => x.hi.y) hab
    simp only [shift, Vec2.sub_x, Vec2.sub_y, sub_left_inj] at h1 h2 h3 h4
    cases a; cases b
    congr 1
    · ext
      · exact h1
      · exact h2
    · ext
      · exact h3
      · exact h4
  constructor
  · rintro ⟨q, i, h1, h2, h3⟩
    rw [a1] at h1
    cases h1; cases h2
    exact ⟨_, id, by rw [hg]; exact a1, rfl, by rw [hn, h3]; rfl⟩
  · rintro ⟨q, i, h1, h2, h3⟩
    rw [hg, a1] at h1
    cases h1; cases h2
    rw [hn, Option.map_eq_some_iff] at h3
    obtain ⟨b, h3, h4⟩ := h3
    cases inj _ _ h4
    exact ⟨_, id, a1, rfl, h3⟩

/-- C131, second part. Every question to the shifted world gets the answer of the original one, call by call: queries with the shifted box, ray casts
with the shifted ray (the callback being told the point seen from the new origin), and tests of a point. -/
theorem c131_questions {env : Env F} {w w' : World F} (h : WHist env w) (o : Vec2 F) (e : w.shiftOrigin o = some w') :
    (∀ (S : Type) (cb : S → Nat → S × Bool) box s, w'.queryAabb cb (shift o box) s = w.queryAabb cb box s) ∧
    (∀ (S : Type) (cb : S → Nat → Vec2 F → Vec2 F → F → S × F) p1 p2 s,
      w'.rayCast cb (p1 - o) (p2 - o) s = w.rayCast (fun s f p n r => cb s f (p - o) n r) p1 p2 s) ∧
    ∀ b ∈ w.g.bodyList, ∀ f ∈ (w.g.bodies b).fixtures, ∀ p, w'.testPoint f (p - o) = w.testPoint f p := by
  have hw := (whist_inv h).toWInv
  have hl : w.locked = false := by
    cases hl : w.locked with
    | false => rfl
    | true => unfold World.shiftOrigin at e; rw [if_pos hl] at e; cases e
  obtain ⟨w'', e', -, -, -, hg, hbp, -⟩ := shiftOrigin_spec' (env := env) o hw hl
  cases e.symm.trans e'
  have hphys := shiftOrigin_phys hw.body.nodup e
  have hchild : ∀ id, w'.childOf id = w.childOf id := by
    intro id
    have : w'.bp.tree.getUserData id = w.bp.tree.getUserData id := by
      rw [hbp]
      show (w.bp.tree.shiftOrigin o).getUserData id = _
      simp only [Tree.getUserData]
      by_cases hid : id < w.bp.tree.cap
      · rw [Tree.get_of_lt (t := w.bp.tree.shiftOrigin o) hid, Tree.get_of_lt hid, shiftOrigin_nodes _ _ hid]
        rfl
      · rw [show (w.bp.tree.shiftOrigin o).get id = none from if_neg hid, show w.bp.tree.get id = none from if_neg hid]
    unfold World.childOf
    rw [this, hg]
  refine ⟨fun S cb box s => ?_, fun S cb p1 p2 s => ?_, fun b hb f hf p => ?_⟩
  · unfold World.queryAabb
    simp only [hchild]
    rw [hbp]
    show ((w.bp.tree.shiftOrigin o).query _ _ _).join = _
    simp only [Tree.query, queryLoop_shift]
    rfl
  · obtain ⟨gh, buf, rep, pi⟩ := hw.prox
    obtain ⟨peak, hh⟩ := (bhistInv pi.hist).hist
    unfold World.rayCast
    rw [hbp]
    change ((w.bp.tree.shiftOrigin o).rayCast _ _ _).bind _ = _
    rw [rayCast_shift (histInv hh).inv o _ _ p1 p2 1 ?_ (some s)]
    · rfl
    intro id hid s f
    obtain ⟨p, hp⟩ := Option.ne_none_iff_exists'.mp hid
    have hc := (live_iff_child hw).mp (pi.only id p hp).1
    obtain ⟨b, hb, hb1, hb2, -⟩ := bodyOf_child hw hc
    have hco := childOf_of pi hp
    have hfr : w'.fixtureRayCast p.data.1 ⟨p1 - o, p2 - o, f⟩ p.data.2 = w.fixtureRayCast p.data.1 ⟨p1, p2, f⟩ p.data.2 := by
      unfold World.fixtureRayCast
      have hb3 : w'.bodyOf p.data.1 = some b := by unfold World.bodyOf; rw [hg]; exact hb1
      rw [hb2, hb3]
      simp only [Option.bind_eq_bind, Option.bind_some]
      rw [hphys b hb, hg]
      exact shape_rayCast_shift _ o p1 p2 f _ _
    have hpt : ∀ r : F, (1 - r) * (p1 - o) + r * (p2 - o) = ((1 - r) * p1 + r * p2) - o := by
      intro r
      ext <;> simp only [Vec2.add_x, Vec2.add_y, Vec2.smul_x, Vec2.smul_y, Vec2.sub_x, Vec2.sub_y] <;> ring
    simp only [hchild, hco, Option.bind_some, hfr]
    cases s with
    | none => rfl
    | some s =>
      cases hh : w.fixtureRayCast p.data.1 ⟨p1, p2, f⟩ p.data.2 with
      | none => rfl
      | some out =>
        cases out with
        | none => rfl
        | some out => simp only [Option.map_some, hpt]
  · have hb1 := ((hw.body.fixtures b f).mp hf).2
    unfold World.testPoint World.bodyOf
    rw [hg, hb1]
    simp only [Option.bind_eq_bind, Option.bind_some]
    rw [hphys b hb]
    congr 1
    exact shape_testPoint_shift _ o p _

end

section
attribute [local instance] exElem

/-- The three balls of `Ex.w1`, after a step, seen from (3, -4): a query finds them where they now are, and not where they were. -/
example : WHist Ex.env Ex.w1 ∧ Ex.w1.locked = false ∧ Ex.w1.g.bodyList.length = 3 ∧
    ((Ex.w1.shiftOrigin ⟨3, -4⟩).map fun w => decide ((w.phys 0).xf.p = (Ex.w1.phys 0).xf.p - ⟨3, -4⟩)) = some true ∧
    ((Ex.w1.shiftOrigin ⟨3, -4⟩).bind fun w => w.queryAabb (fun s f => (f :: s, true)) (shift ⟨3, -4⟩ ⟨⟨-1, -1⟩, ⟨4, 1⟩⟩) []) =
      Ex.w1.queryAabb (fun s f => (f :: s, true)) ⟨⟨-1, -1⟩, ⟨4, 1⟩⟩ [] ∧
    (Ex.w1.queryAabb (fun s f => (f :: s, true)) ⟨⟨-1, -1⟩, ⟨4, 1⟩⟩ []) ≠ some [] :=
  ⟨Ex.w1_hist, by decide +kernel, by decide +kernel, by decide +kernel, by decide +kernel, by decide +kernel⟩

end
end B2.Props
