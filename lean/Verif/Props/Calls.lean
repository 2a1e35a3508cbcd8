import Verif.Spec.Calls
import Verif.Proofs.CallTotal
import Verif.Props.Engine

set_option linter.unusedSectionVars false

/-!
# Programs

A program is any list of calls of the functions of a world, its bodies, fixtures and contacts. It is `Correct` if every call respects the
documented contract in the world in which it is made. The collision routines, the solvers and the broad phase are the models of the actual ones.
-/
namespace B2.Props
open B2 Spec World
section
variable {F : Type} [Field F] [LinearOrder F] [IsStrictOrderedRing F] [Elem F] [ElemLaws F]

/-! ## C114 -/

theorem correct_run {E : Engine F} (hs : CallbacksSafe E.env) (ht : CallbacksTame E.env) (hl : PostSolveLinks E.env) (hj : Seated E) :
    ∀ (cs : List (Call F)) {w : World F}, TameHist E.env w → Sturdy w → Correct E.env w cs → ∃ w', runCalls E.env w cs = some w' ∧ TameHist E.env w' := by
  intro cs
  induction cs with
  | nil => intro w h _ _; exact ⟨w, rfl, h⟩
  | cons c cs ih =>
    intro w h hS hc
    obtain ⟨hv, hnext⟩ := hc
    have hI := (env_solversRun hj).impulses
    obtain ⟨w1, e1⟩ := valid_run hs ht (whist_inv (tame_whist h)) hS hv (by
      rintro dt vi pi rfl
      exact c63_step h hs ht hl (env_narrowRuns E) (env_solversRun hj) hv.2 (hS.shapes (whist_inv (tame_whist h)).toWInv) hv.1 dt vi pi)
    obtain ⟨w2, e2, h2⟩ := ih (h.call c hv.ok hv.tame e1) (valid_sturdy ht hI (tame_pts ht hI h) hS hv e1) (hnext w1 e1)
    refine ⟨w2, ?_, h2⟩
    unfold runCalls
    rw [List.foldlM_cons, e1]
    exact e2

/-- No correct program panics. -/
theorem c114_program {E : Engine F} (hs : CallbacksSafe E.env) (ht : CallbacksTame E.env) (hl : PostSolveLinks E.env) (hj : Seated E)
    (gravity : Vec2 F) (dPhys : Phys F) (dShape : Shape F) (dAttr : FAttr F) (dCst : CState F) (dBox : AABB F) (cs : List (Call F))
    (h : Correct E.env (World.new gravity dPhys dShape dAttr dCst dBox) cs) :
    ∃ w', runCalls E.env (World.new gravity dPhys dShape dAttr dCst dBox) cs = some w' :=
  (correct_run hs ht hl hj cs (.new ..) (fun f hf => absurd hf (Nat.not_lt_zero f)) h).imp fun _ h => h.1

/-! ## C115 -/

/-- A shape that is not degenerate always has mass data; a circle or a polygon has a positive mass and a positive rotational inertia about its
center. -/
theorem c115_shape (s : Shape F) (hf : FineShape s) (hx : Extended s) (hc : s.type = .circle ∨ s.type = .polygon) (d : F) (hd : 0 < d) :
    ∃ m, s.computeMass d = some m ∧ 0 < m.mass ∧ 0 < m.i - m.mass * (m.center.x ^ 2 + m.center.y ^ 2) := by
  obtain ⟨m, e, h⟩ := (extended_solid hf hx d hd.le).2 hd
  refine ⟨m, e, ?_⟩
  rcases h with h | h
  on_goal 2 => exact ⟨h.1, by linarith [h.2]⟩
  exfalso
  cases s with
  | circle c =>
    cases e
    have hr : 0 < c.radius := hx
    exact absurd h.1 (mul_pos (mul_pos (mul_pos hd ElemLaws.pi_pos) hr) hr).ne'
  | polygon p =>
    have he : (0 : F) < epsilon := by unfold epsilon; positivity
    obtain ⟨m1, -⟩ := c60_polygon_mass p d m e
    rw [m1] at h
    exact absurd h.1 (mul_pos hd (he.trans hx)).ne'
  | edge e => rcases hc with hc | hc <;> cases hc
  | chain e => rcases hc with hc | hc <;> cases hc

/-- Stepping is correct as long as there are at most 64 bodies and no edge or chain is on a dynamic body. -/
theorem correct_steps {E : Engine F} {dt : F} {vi pi : Nat} (n : Nat) : ∀ {w : World F}, WHist E.env w → w.g.bodyList.length ≤ 64 → EdgesFixed w →
    Correct E.env w (List.replicate n (.step dt vi pi)) := by
  induction n with
  | zero => intro w _ _ _; trivial
  | succ n ih =>
    intro w h hn he
    refine ⟨⟨hn, he⟩, fun w1 e1 => ?_⟩
    obtain ⟨k1, k2, k3, k4, -⟩ := step_contents h e1
    refine ih (h.call (.step dt vi pi) trivial e1) (by rw [k1]; exact hn) fun b hb hd f hm => ?_
    rw [k1] at hb
    rw [k4 b] at hm
    rw [k2]
    exact he b hb ((k3 b).symm.trans hd) f hm

end

/-! ## Examples -/
section
open EngineEx

/-- C114: hang a ball from a box and step a thousand times. -/
noncomputable def hangProgram : List (Call ℝ) :=
  [.createBody (hangDef .static 0 0), .createFixture 0 hangBox, .createBody (hangDef .dynamic (-6) 0), .createFixture 1 hangBall, .setMassData 1 ⟨1, ⟨0, 0⟩, 1⟩,
    .createJoint ⟨0, 1, true⟩] ++ List.replicate 1000 (.step (1/60) 8 3)

theorem hangBox_area : epsilon < shoelace (Polygon.default.setAsBox 1 1 : Polygon ℝ).verts := by
  simp only [Polygon.setAsBox, boxVerts]
  norm_num [shoelace, epsilon]

theorem hang_correct : Correct exEngine.env e0 hangProgram := by
  refine ⟨⟨le_refl _, le_refl _⟩, fun w1 r1 => ?_⟩
  cases e1_run.symm.trans r1
  refine ⟨⟨by decide, le_refl _, ⟨1, rfl⟩, e6_fine 0 (by decide) 0 (by decide), hangBox_area⟩, fun w2 r2 => ?_⟩
  cases e2_run.symm.trans r2
  refine ⟨⟨le_refl _, le_refl _⟩, fun w3 r3 => ?_⟩
  cases e3_run.symm.trans r3
  refine ⟨⟨by decide, le_refl _, ⟨1, rfl⟩, e6_fine 1 (by decide) 1 (by decide), one_pos⟩, fun w4 r4 => ?_⟩
  cases e4_run.symm.trans r4
  refine ⟨⟨by decide, fun _ => by norm_num⟩, fun w5 r5 => ?_⟩
  cases e5_eq.symm.trans r5
  refine ⟨⟨by decide, by decide, by decide⟩, fun w6 r6 => ?_⟩
  cases e6_run.symm.trans r6
  exact correct_steps 1000 (tame_whist e6_tame) (by decide) e6_edges

example : ∃ w', runCalls exEngine.env e0 hangProgram = some w' :=
  c114_program exEngine_quiet.1 exEngine_quiet.2.1 exEngine_quiet.2.2.1 exEngine_seated.1 _ _ _ _ _ _ _ hang_correct

/-- C115: the box. -/
example : ∃ m, hangBox.shape.computeMass 2 = some m ∧ 0 < m.mass ∧ 0 < m.i - m.mass * (m.center.x ^ 2 + m.center.y ^ 2) :=
  c115_shape _ (e6_fine 0 (by decide) 0 (by decide)) hangBox_area (.inr rfl) 2 two_pos

end
end B2.Props
