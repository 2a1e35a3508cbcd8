import Verif.Proofs.WorldMixtureHist
import Verif.Props.Doze

set_option linter.unusedSectionVars false

/-!
# C144: contacts have the mixed coefficients of their fixtures until one is set

A contact gets the geometric mean of the frictions of its fixtures, the larger restitution and the smaller threshold when it is created. No call and no
step changes them after that, except the setters of the contact itself: the setters of the fixtures do not reach contacts that exist, and
what was set on a contact stays for as long as the contact lives.
-/
namespace B2.Props
open B2 Spec World
section
variable {F : Type} [Field F] [LinearOrder F] [IsStrictOrderedRing F] [Elem F] {env : Env F}

theorem mixed_iff {w : World F} {c : Nat} : Mixed w c ↔ (w.cst c).coefs = (w.newCst (w.g.contacts c)).coefs := by
  have hr : ∀ a b : F, mixRestitution a b = max a b := fun a b => by
    unfold mixRestitution
    split
    · rename_i h; exact (max_eq_left h.le).symm
    · rename_i h; exact (max_eq_right (not_lt.mp h)).symm
  have ht : ∀ a b : F, mixRestitutionThreshold a b = min a b := fun a b => by
    unfold mixRestitutionThreshold
    split
    · rename_i h; exact (min_eq_left h.le).symm
    · rename_i h; exact (min_eq_right (not_lt.mp h)).symm
  unfold CState.coefs newCst
  simp only [Prod.mk.injEq, hr, ht, mixFriction]
  exact ⟨fun h => ⟨h.1, h.2, h.3, h.4⟩, fun h => ⟨h.1, h.2.1, h.2.2.1, h.2.2.2⟩⟩

theorem sameCoefs_of {w w' : World F} {c : Nat} (h : (w'.cst c).coefs = (w.cst c).coefs) : SameCoefs w w' c := by
  unfold CState.coefs at h
  simp only [Prod.mk.injEq] at h
  exact ⟨h.1, h.2.1, h.2.2.1, h.2.2.2⟩

/-- **C144.** After any call that does not set a coefficient of a contact, a step among them, a contact that was there has the coefficients it had, and a new one
has the mixed coefficients of its fixtures. -/
theorem c144_call (hE : Muted env) {w w' : World F} (h : WHist env w) {k : Call F} (ok : k.Ok w) (ho : ∀ op, k = .user op → ¬ SetsContact op)
    (e : k.run env w = some w') : ∀ c ∈ w'.g.contactList, (c ∈ w.g.contactList ∧ SameCoefs w w' c) ∨ (c ∉ w.g.contactList ∧ Mixed w' c) := by
  have hi := (whist_inv h).toWInv
  have hi' := (whist_inv (.call k h ok e)).toWInv
  have key : ∀ {v : World F}, v.g.contactList = w.g.contactList → v.g.nextContact = w.g.nextContact → v.cst = w.cst → Mats v w' →
      ∀ c ∈ w'.g.contactList, (c ∈ w.g.contactList ∧ SameCoefs w w' c) ∨ (c ∉ w.g.contactList ∧ Mixed w' c) := by
    intro v h1 h2 h3 m c hc
    by_cases hn : c < v.g.nextContact
    · exact .inl ⟨h1 ▸ m.old c hc hn, sameCoefs_of ((m.keep c hn).trans (by rw [h3]))⟩
    · refine .inr ⟨fun hm => hn (h2 ▸ hi.link.lt c hm), mixed_iff.mpr (m.new c (not_lt.mp hn) (hi'.link.lt c hc))⟩
  by_cases hf : ∃ b d, k = .createFixture b d
  · obtain ⟨b, d, rfl⟩ := hf
    simp only [Call.run, Option.map_eq_some_iff] at e
    obtain ⟨⟨u, f⟩, e, rfl⟩ := e
    obtain ⟨v, m, -, h1, h2, -, h3⟩ := createFixture_mats e
    exact key h1 h2 h3 m
  by_cases hn : ∀ op, k = .user op → SetsNone op
  · exact key rfl rfl rfl (call_mats hE k (fun b d hk => hf ⟨b, d, hk⟩) hn e)
  simp only [not_forall] at hn
  obtain ⟨op, rfl, hn⟩ := hn
  have hc := ho op rfl
  have same : w'.g.contactList = w.g.contactList ∧ w'.cst = w.cst := by
    cases op with
    | fixtureSetFriction f x => cases e; exact ⟨rfl, rfl⟩
    | fixtureSetRestitution f x => cases e; exact ⟨rfl, rfl⟩
    | fixtureSetRestitutionThreshold f x => cases e; exact ⟨rfl, rfl⟩
    | contactSetFriction c x => exact absurd trivial hc
    | contactSetRestitution c x => exact absurd trivial hc
    | contactSetRestitutionThreshold c x => exact absurd trivial hc
    | contactSetTangentSpeed c x => exact absurd trivial hc
    | _ => exact absurd trivial hn
  intro c hm
  exact .inl ⟨same.1 ▸ hm, sameCoefs_of (by rw [same.2])⟩

theorem unset_hist {w : World F} (h : UnsetHist env w) : WHist env w := by
  induction h with
  | new => exact .new ..
  | call c _ ok _ e ih => exact .call c ih ok e

/-- **C144.** If nobody sets coefficients, every contact has the mixed coefficients of its fixtures. -/
theorem c144_history (hE : Muted env) {w : World F} (h : UnsetHist env w) : ∀ c ∈ w.g.contactList, Mixed w c := by
  induction h with
  | new => intro c hc; cases hc
  | @call w w' k hw ok hn e ih =>
    have hi := (whist_inv (unset_hist hw)).toWInv
    have hi' := (whist_inv (.call k (unset_hist hw) ok e)).toWInv
    by_cases hf : ∃ b d, k = .createFixture b d
    · obtain ⟨b, d, rfl⟩ := hf
      simp only [Call.run, Option.map_eq_some_iff] at e
      obtain ⟨⟨u, f⟩, e, rfl⟩ := e
      obtain ⟨v, m, h0, h1, h2, h3, h4⟩ := createFixture_mats e
      intro c hc
      rw [mixed_iff]
      by_cases hlt : c < v.g.nextContact
      · have hm : c ∈ w.g.contactList := h1 ▸ m.old c hc hlt
        rw [m.keep c hlt, h4, mixed_iff.mp (ih c hm), newCst_coefs m.coef, m.ends c hlt, h0]
        obtain ⟨bA, bB, hA, hB, -⟩ := hi.ok c hm
        have a := (hi.body.owner _ _ hA).1
        have b := (hi.body.owner _ _ hB).1
        unfold newCst CState.coefs
        dsimp only
        rw [h3, upd_other _ _ (show (w.g.contacts c).fA ≠ w.g.nextFixture by omega), upd_other _ _ (show (w.g.contacts c).fB ≠ w.g.nextFixture by omega)]
      · exact m.new c (not_lt.mp hlt) (hi'.link.lt c hc)
    have m := call_mats hE k (fun b d hk => hf ⟨b, d, hk⟩) hn e
    intro c hc
    rw [mixed_iff]
    by_cases hlt : c < w.g.nextContact
    · rw [m.keep c hlt, mixed_iff.mp (ih c (m.old c hc hlt)), newCst_coefs m.coef, m.ends c hlt]
    · exact m.new c (not_lt.mp hlt) (hi'.link.lt c hc)

end

namespace MixtureEx
attribute [local instance] lowElem
open MomEx

/-- The balls differ in all three coefficients. -/
def rough : FixDef ℚ := ⟨.circle ⟨1/2, ⟨0, 0⟩⟩, ⟨1, 1/2, 1/3, 2, false, ⟨1, 0xFFFF, 0⟩⟩⟩

/-- Two balls touch and two others fly at each other. -/
def calls : List (Call ℚ) :=
  [.createBody (body .dynamic 0 0 3), .createFixture 0 BounceEx.ball, .createBody (body .dynamic 1 0 0), .createFixture 1 rough,
   .createBody (body .dynamic 10 0 60), .createFixture 2 rough, .createBody (body .dynamic 12 0 0), .createFixture 3 BounceEx.ball, .step 0 8 3]
def w0 : World ℚ := (runAll eng.env calls Ex.w0).get (by decide +kernel)
/-- The user sets coefficients of the contact, and then of a fixture it is at. -/
def w1 : World ℚ := ((Call.user (.contactSetFriction 0 7)).run eng.env w0).get (by decide +kernel)
def w2 : World ℚ := ((Call.user (.fixtureSetFriction 0 5)).run eng.env w1).get (by decide +kernel)
def w3 : World ℚ := (w2.step eng.env (1/60) 8 3).get (by decide +kernel)

theorem muted : Muted eng.env := by intro w k op h; rw [show eng.env.react w k = [] from rfl] at h; cases h
theorem w0_hist : WHist eng.env w0 := runAll_hist calls (w := Ex.w0) (.new ..) (by rw [w0, Option.some_get])
theorem w1_hist : WHist eng.env w1 := .call (.user (.contactSetFriction 0 7)) w0_hist (by decide +kernel) (by rw [w1, Option.some_get])
theorem w2_hist : WHist eng.env w2 := .call (.user (.fixtureSetFriction 0 5)) w1_hist (by decide +kernel) (by rw [w2, Option.some_get])

/-- The hypotheses of `c144_call` hold: the contact that was there keeps the friction that was set on it although a fixture has another by now, and the
contact that is new has the coefficients of its fixtures. -/
example : Muted eng.env ∧ WHist eng.env w2 ∧ (Call.step (1/60 : ℚ) 8 3).Ok w2 ∧ (Call.step (1/60 : ℚ) 8 3).run eng.env w2 = some w3 ∧ w2.g.contactList = [0] ∧ w3.g.contactList = [1, 0] ∧
    (w2.cst 0).touching = true ∧ (w3.cst 0).friction = 7 ∧ (w3.cst 0).restitution = 1/2 ∧ (w3.cst 0).restitutionThreshold = 1 ∧ (w3.fattr 0).friction = 5 ∧
    (w3.cst 1).friction = 1/8 ∧ (w3.cst 1).restitution = 1/2 ∧ (w3.cst 1).restitutionThreshold = 1 :=
  ⟨muted, w2_hist, by decide +kernel, by show w2.step _ _ _ _ = _; rw [w3, Option.some_get], by decide +kernel, by decide +kernel, by decide +kernel, by decide +kernel, by decide +kernel,
    by decide +kernel, by decide +kernel, by decide +kernel, by decide +kernel, by decide +kernel⟩

theorem runAll_unset {env : Env ℚ} : ∀ (cs : List (Call ℚ)) {w w' : World ℚ}, (∀ c ∈ cs, ∀ op, c = .user op → SetsNone op) → UnsetHist env w → runAll env cs w = some w' →
    UnsetHist env w' := by
  intro cs
  induction cs with
  | nil => intro w w' _ h e; cases e; exact h
  | cons c cs ih =>
    intro w w' hc h e
    unfold runAll at e
    split at e
    · rename_i hok
      simp only [Option.bind_eq_some_iff] at e
      obtain ⟨v, e1, e2⟩ := e
      exact ih (fun d hd => hc d (List.mem_cons_of_mem _ hd)) (.call c h hok (hc c (List.mem_cons_self ..)) e1) e2
    · cases e

/-- The hypotheses of `c144_history` hold of a world with a contact between unlike fixtures. -/
example : Muted eng.env ∧ UnsetHist eng.env w0 ∧ 0 ∈ w0.g.contactList ∧ (w0.cst 0).friction = 1/8 :=
  ⟨muted, runAll_unset calls (w := Ex.w0) (by intro c hc op he; subst he; simp [calls] at hc) (.new ..) (by rw [w0, Option.some_get]), by decide +kernel, by decide +kernel⟩

end MixtureEx
end B2.Props
