import Verif.Proofs.WorldComplete
import Verif.Proofs.WorldExample

/-!
# Property C90: after a step no contact is missing
-/
namespace B2.Props
open Spec World
set_option linter.unusedSectionVars false
attribute [local instance] exElem

section
variable {F : Type} [Field F] [LinearOrder F] [IsStrictOrderedRing F] [Elem F]

/-- After any history of calls, and one more step of positive length that is not the rest of a step cut short by
sub-stepping: if two children of fixtures may collide and their fat boxes overlap, the world has a contact for them. Left out are
pairs of bodies in `D`: those that were parted by destroying a joint that kept them from colliding. -/
theorem c90_complete {env : Env F} {D : Nat → Nat → Prop} (hs : FilterSteady env) {w w' : World F} (h : DHist env D w)
    (hc : w.stepComplete = true) {dt : F} (hdt : 0 < dt) {vi pi : Nat} (e : w.step env dt vi pi = some w')
    {x y : Nat × Nat} (hm : MayCollide env D w' x.1 y.1) (ho : FatOverlap w' x y) : HasContact w' x y := by
  have f := step_full hs (whist_inv h.whist).toWInv (dhist_comp hs h) e
  have hl : ∀ {z : Nat × Nat} {p : ProxyS} {a : Nat}, (w'.g.fixtures z.1).proxies[z.2]? = some p → (w'.g.fixtures z.1).body = some a →
      a ∈ w'.g.bodyList → (w'.g.bodies a).enabled = true → Live w'.g z.1 z.2 := by
    intro z p a h1 h2 h3 h4
    exact ⟨a, h3, h4, h2, (List.getElem?_eq_some_iff.mp h1).1⟩
  have hm' := hm
  have ho' := ho
  obtain ⟨a, b, h1, h2, h3, h4, -, h6, h7, -⟩ := hm'
  obtain ⟨px, py, -, -, k1, -, k2, -⟩ := ho'
  obtain ⟨gh, buf, rep, hb, id1, id2, p1, p2, g1, g2, rfl, rfl, hmt⟩ := fatOverlap_meets f.winv ho (hl k1 h1 h3 h6) (hl k2 h2 h4 h7)
  have he := f.idle ⟨hc, hdt⟩ gh buf rep hb
  subst he
  rcases f.comp gh [] rep hb id1 id2 p1 p2 g1 g2 hm hmt with k | k | k
  · exact k
  · cases k
  · cases k

/-- Between steps too: a pair without its contact has a proxy that waits in the buffer for the next search. -/
theorem c90_pending {env : Env F} {D : Nat → Nat → Prop} (hs : FilterSteady env) {w : World F} (h : DHist env D w)
    {gh : Nat → Option (Proxy F (Nat × Nat))} {buf : List Nat} {rep : Set (Nat × Nat)} (hb : BHist w.bp gh buf rep)
    {i j : Nat} {p q : Proxy F (Nat × Nat)} (hi : gh i = some p) (hj : gh j = some q)
    (hm : MayCollide env D w p.data.1 q.data.1) (ho : Meets p.fat q.fat) (hno : ¬ HasContact w p.data q.data) : i ∈ buf ∨ j ∈ buf :=
  (dhist_comp hs h gh buf rep hb i j p q hi hj hm ho).resolve_left hno

theorem c90_default_filter_steady {env : Env F} (h : env.filter = none) : FilterSteady env := fun φ h' => by rw [h] at h'; cases h'
end

/-- Runs without destroying joints. -/
theorem runAll_dhist {env : Env ℚ} : ∀ (cs : List (Call ℚ)) {w w' : World ℚ}, DHist env (fun _ _ => False) w →
    (cs.all fun c => match c with | .destroyJoint _ => false | _ => true) = true → runAll env cs w = some w' → DHist env (fun _ _ => False) w' := by
  intro cs
  induction cs with
  | nil => intro w w' h _ e; cases e; exact h
  | cons c cs ih =>
    intro w w' h hd e
    rw [List.all_cons, Bool.and_eq_true] at hd
    unfold runAll at e
    split at e
    · rename_i hok
      rw [Option.bind_eq_some_iff] at e
      obtain ⟨v, e1, e2⟩ := e
      refine ih (h.call c hok ?_ e1) hd.2 e2
      rintro j rfl
      cases hd.1
    · cases e

namespace Ex90

/-- A ball above a fixed ball, a third ball joined to the first, no step yet. -/
def calls : List (Call ℚ) :=
  [.createBody (Ex.body .dynamic 0 1), .createFixture 0 Ex.ball, .createBody (Ex.body .static 0 0), .createFixture 1 Ex.ball,
   .createBody (Ex.body .dynamic 1 0), .createFixture 2 Ex.ball, .createJoint ⟨0, 2, false⟩]
def w0 : World ℚ := (runAll Ex.env calls Ex.w0).get (by decide +kernel)
def w1 : World ℚ := (w0.step Ex.env (1/60) 8 3).get (by decide +kernel)
theorem w0_hist : DHist Ex.env (fun _ _ => False) w0 := runAll_dhist calls (w := Ex.w0) (.new ..) (by decide +kernel) (by rw [w0, Option.some_get])

/-- The joint destroyed afterwards, and another step. -/
def w2 : World ℚ := (runAll Ex.env [.destroyJoint 0] w1).get (by decide +kernel)
def w3 : World ℚ := (w2.step Ex.env (1/60) 8 3).get (by decide +kernel)
theorem w2_hist : WHist Ex.env w2 :=
  runAll_hist [.destroyJoint 0] (w0_hist.whist.call (.step (1/60) 8 3) trivial (show w0.step Ex.env (1/60) 8 3 = some w1 by rw [w1, Option.some_get])) (by rw [w2, Option.some_get])
end Ex90

private theorem allows {w : World ℚ} {f f' : Nat} (h : filterShouldCollide (w.fattr f).filter (w.fattr f').filter = true) : FilterAllows Ex.env w f f' := h

private theorem fatOverlap_of {w : World ℚ} {x y : Nat × Nat} (h : (((w.g.fixtures x.1).proxies[x.2]?).bind fun px => px.proxyId.bind fun i =>
    ((w.g.fixtures y.1).proxies[y.2]?).bind fun py => py.proxyId.bind fun j => w.bp.testOverlap i j) = some true) : FatOverlap w x y := by
  simp only [Option.bind_eq_some_iff] at h
  obtain ⟨px, h1, i, h2, py, h3, j, h4, h5⟩ := h
  exact ⟨px, py, i, j, h1, h2, h3, h4, h5⟩

/-- The pair of the two balls that are not joined meets the hypotheses of `c90_complete`: before the step there is no contact,
after it there is. -/
example : FilterSteady Ex.env ∧ DHist Ex.env (fun _ _ => False) Ex90.w0 ∧ Ex90.w0.stepComplete = true ∧ Ex90.w0.g.contactList = [] ∧
    Ex90.w0.step Ex.env (1/60) 8 3 = some Ex90.w1 ∧ MayCollide Ex.env (fun _ _ => False) Ex90.w1 0 1 ∧ FatOverlap Ex90.w1 (0, 0) (1, 0) ∧
    HasContact Ex90.w1 (0, 0) (1, 0) := by
  have h1 : FilterSteady Ex.env := c90_default_filter_steady rfl
  have h2 : Ex90.w0.step Ex.env (1/60) 8 3 = some Ex90.w1 := by rw [Ex90.w1, Option.some_get]
  have h3 : MayCollide Ex.env (fun _ _ => False) Ex90.w1 0 1 := ⟨0, 1, by decide +kernel, by decide +kernel, by decide +kernel, by decide +kernel,
    by decide +kernel, by decide +kernel, by decide +kernel, by decide +kernel, by decide +kernel, by simp, allows (by decide +kernel), allows (by decide +kernel)⟩
  have h4 : FatOverlap Ex90.w1 (0, 0) (1, 0) := fatOverlap_of (by decide +kernel)
  exact ⟨h1, Ex90.w0_hist, by decide +kernel, by decide +kernel, h2, h3, h4,
    c90_complete h1 Ex90.w0_hist (by decide +kernel) (by norm_num) h2 h3 h4⟩

/-- Without leaving out the pairs parted by destroying a joint the claim is false: two balls that were joined by a joint that kept them from
colliding overlap, nothing forbids a contact any more, but the next step does not create one. -/
theorem c90_joint_false : ∃ (w w' : World ℚ), WHist Ex.env w ∧ FilterSteady Ex.env ∧ w.stepComplete = true ∧
    w.step Ex.env (1/60) 8 3 = some w' ∧ MayCollide Ex.env (fun _ _ => False) w' 0 2 ∧ FatOverlap w' (0, 0) (2, 0) ∧ ¬ HasContact w' (0, 0) (2, 0) := by
  refine ⟨Ex90.w2, Ex90.w3, Ex90.w2_hist, c90_default_filter_steady rfl, by decide +kernel, by rw [Ex90.w3, Option.some_get], ?_, ?_, ?_⟩
  · exact ⟨0, 2, by decide +kernel, by decide +kernel, by decide +kernel, by decide +kernel,
      by decide +kernel, by decide +kernel, by decide +kernel, by decide +kernel, by decide +kernel, by simp, allows (by decide +kernel), allows (by decide +kernel)⟩
  · exact fatOverlap_of (by decide +kernel)
  · unfold HasContact
    decide +kernel
end B2.Props
