import Verif.Proofs.WorldCovers
import Verif.Proofs.WorldFree

/-! Fat boxes cover the boxes of shapes in every reachable world. -/
namespace B2
set_option linter.unusedSectionVars false
open World Spec

section
variable {F : Type} [Field F] [LinearOrder F] [IsStrictOrderedRing F] [Elem F]
variable {env : Env F}

theorem Spec.SteadyHist.plain {w : World F} (h : SteadyHist env w) : PlainHist env w := by
  induction h with
  | new => exact .new ..
  | call c _ ok h1 h2 _ e ih => exact .call c ih ok h1 h2 e

/-- A kinematic body that sleeps is at rest. -/
def KRest (t : BodyType) (p : Phys F) : Prop :=
  t = .kinematic → p.awake = false → p.v = ⟨0, 0⟩ ∧ p.w = 0 ∧ p.sweep.c0 = p.sweep.c ∧ p.sweep.a0 = p.sweep.a

theorem sq_zero' {v : Vec2 F} (h : ¬ dot v v > 0) : v = ⟨0, 0⟩ := by
  have h' : v.x * v.x + v.y * v.y ≤ 0 := not_lt.mp h
  have h1 := mul_self_nonneg v.x
  have h2 := mul_self_nonneg v.y
  rw [Vec2.ext_iff]
  exact ⟨mul_self_eq_zero.mp (le_antisymm (by linarith) h1), mul_self_eq_zero.mp (le_antisymm (by linarith) h2)⟩

theorem resetMassData_krest {t : BodyType} {fs : List (F × Shape F)} {p p' : Phys F} (e : Phys.resetMassData t fs p = some p')
    (h : t = .kinematic → p.awake = false → p.v = ⟨0, 0⟩ ∧ p.w = 0) : KRest t p' := by
  rintro rfl
  unfold Phys.resetMassData at e
  dsimp only at e
  rw [if_pos (Or.inr rfl)] at e
  cases e
  intro ha
  obtain ⟨h1, h2⟩ := h rfl ha
  exact ⟨h1, h2, rfl, rfl⟩

theorem krest_stable (hE : LeavesBodies env) : Stable0 env (fun d => d.type = .kinematic → d.awake = true) (fun t op => t = .kinematic → op ≠ .setAwake false) (KRest (F := F)) where
  new d p hN e := by
    intro ht ha
    unfold Phys.new at e
    split at e
    · cases e
      dsimp only at ha
      rw [hN ht, ht] at ha
      cases ha
    · cases e
  awake _ _ := by simp
  reset _ _ := by simp
  obeys w k op h b o he := absurd he (hE w k op h b o)
  run t fs p p' op hM e h := by
    rintro rfl
    have h := h rfl
    have hM := hM rfl
    cases op <;> simp only [BodyOp.run, Option.some.injEq] at e
    case setFixedRotation flag _ =>
      unfold Phys.setFixedRotation at e
      split at e
      · cases e; exact h
      · exact resetMassData_krest e (fun _ ha => ⟨(h ha).1, rfl⟩) rfl
    case resetMassData => exact resetMassData_krest e (fun _ ha => ⟨(h ha).1, (h ha).2.1⟩) rfl
    all_goals subst e
    case setAwake flag _ =>
      cases flag with
      | false => exact absurd rfl hM
      | true => intro ha; cases ha
    case setLinearVelocity v _ =>
      unfold Phys.setLinearVelocity
      rw [if_neg (by simp)]
      dsimp only
      split
      · intro ha; cases ha
      · rename_i hv
        exact fun ha => ⟨sq_zero' hv, (h ha).2⟩
    case setAngularVelocity v _ =>
      unfold Phys.setAngularVelocity
      rw [if_neg (by simp)]
      dsimp only
      split
      · intro ha; cases ha
      · rename_i hv
        exact fun ha => ⟨(h ha).1, mul_self_eq_zero.mp (le_antisymm (not_lt.mp hv) (mul_self_nonneg _)), (h ha).2.2⟩
    case setSleepingAllowed flag _ =>
      unfold Phys.setSleepingAllowed
      dsimp only
      split
      · exact h
      · intro ha; cases ha
    all_goals first
      | exact h
      | (simp only [Phys.applyForce, Phys.applyForceToCenter, Phys.applyTorque, Phys.applyLinearImpulse, Phys.applyLinearImpulseToCenter, Phys.applyAngularImpulse,
          Phys.applyGate]
         exact h)
  retype t t' fs p p' e h := by
    rintro rfl
    unfold Phys.settle
    rw [if_neg (by simp)]
    intro ha; cases ha
  data t m p p' e h := by
    rintro rfl
    unfold Phys.setMassData at e
    rw [if_pos (by simp)] at e
    cases e
    exact h rfl
  place t p pos angle h := fun ht ha => ⟨(h ht ha).1, (h ht ha).2.1, rfl, rfl⟩
  clear t p h := h
  shift t p o h := fun ht ha => by
    obtain ⟨h1, h2, h3, h4⟩ := h ht ha
    exact ⟨h1, h2, by dsimp only; rw [h3], h4⟩

theorem Covered.of_disabled {w : World F} {b : Nat} (hw : WInv w) (hd : (w.g.bodies b).enabled = false) : Covered w b := by
  intro f hf i hl
  obtain ⟨b', -, he, hb', -⟩ := hl
  rw [((hw.body.fixtures b f).mp hf).2] at hb'
  cases hb'
  rw [hd] at he
  cases he

/-- In every reachable world the fat box of each proxy covers the box of its shape at the transform of its body. -/
theorem Spec.SteadyHist.covered {w : World F} (hE : LeavesBodies env) (hP : PostSolveLinks env) (hT : ToiForward env) (hH : HeavyStay env) (h : SteadyHist env w) :
    AllCovered w ∧ ∀ b ∈ w.g.bodyList, KRest (w.typeOf b) (w.phys b) := by
  induction h with
  | new =>
    refine ⟨?_, ?_⟩
    · intro b hb; cases hb
    · intro b hb; cases hb
  | @call w w' c hw ok hsub hN hS e ih =>
    have hh := whist_inv hw.plain.hist
    have hi := hh.toWInv
    have hi' : WInv w' := (whist_inv (WHist.call c hw.plain.hist ok e)).toWInv
    by_cases hs : ∃ dt vi pi, c = .step dt vi pi
    · obtain ⟨dt, vi, pi, rfl⟩ := hs
      have key : ∀ b ∈ w.g.bodyList, Covered w' b ∧ KRest (w'.typeOf b) (w'.phys b) := by
        intro b hb
        have hcov := ih.1 b hb
        have hcon := whist_stable consistent_stable hw.plain.hist b hb
        have hty : w'.typeOf b = w.typeOf b := by unfold World.typeOf; rw [(step_good hi e).body]
        cases ht : w.typeOf b with
        | dynamic =>
          exact ⟨dyn_step hE hP hT hi hw.plain.complete hb (posed_iff.mpr ⟨hcon.rotation, hcon.center⟩) ht hcov e, fun h => by rw [hty, ht] at h; cases h⟩
        | static =>
          have hr := hw.plain.rests hE hP hT hH b hb ht
          exact ⟨(rest_step hE hP hT hH hi hw.plain.complete hb hcon (by rw [ht]; decide) hr e).2.2 hcov, fun h => by rw [hty, ht] at h; cases h⟩
        | kinematic =>
          have hk := ih.2 b hb ht
          cases ha : (w.phys b).awake with
          | false =>
            obtain ⟨⟨-, -, k1, k2, -⟩, k3, k4⟩ := rest_step hE hP hT hH hi hw.plain.complete hb hcon (by rw [ht]; decide) (hk ha) e
            exact ⟨k4 hcov, fun _ _ => ⟨k1.trans (hk ha).1, k2.trans (hk ha).2.1, k3⟩⟩
          | true =>
            cases hd : (w.g.bodies b).enabled with
            | false =>
              obtain ⟨-, -, -, -, -, k⟩ := off_step hE hP hT hi hw.plain.complete hb hd e
              refine ⟨.of_disabled hi' (by rw [(step_good hi e).body]; exact hd), fun _ h => ?_⟩
              rw [k ha] at h; cases h
            | true =>
              have hS := hS b hb ht ha hd
              obtain ⟨⟨-, -, k2, k3, -⟩, k4, k5, k6, k7⟩ := heavy_step (S := False) hE hP hT hH hi hw.plain.complete hb hcon (by rw [ht]; decide) (fun h => by rw [ht] at h; cases h)
                (fun h => h.elim) (fun _ => ⟨ha, hd⟩) (fun hp => (hS hp).1) (fun hp hal => by
                  cases hr : restless (w.phys b) with
                  | true => exact .inl rfl
                  | false => exact .inr ((hS hp).2 hal (restless_sleepy hr))) e
              refine ⟨k7 hcov, fun _ h => ?_⟩
              have h0 : (w.phys b).v = ⟨0, 0⟩ ∧ (w.phys b).w = 0 := by
                by_contra hc
                rw [k5 hc] at h; cases h
              have hp : 0 < dt := by
                by_contra hc
                rw [k6 hc ha] at h; cases h
              exact ⟨k2.trans h0.1, k3.trans h0.2, k4 (.inr hp) h0.1 h0.2⟩
      have hl : ∀ b ∈ w'.g.bodyList, b ∈ w.g.bodyList := fun b hb => by rw [(step_good hi e).eq] at hb; exact hb
      exact ⟨fun b hb => (key b (hl b hb)).1, fun b hb => (key b (hl b hb)).2⟩
    · have hs' : ∀ dt vi pi, c ≠ .step dt vi pi := fun dt vi pi hc => hs ⟨dt, vi, pi, hc⟩
      refine ⟨call_covers c hh ih.1 ok hs' e hi', call_stable (krest_stable hE) c (fun d hd => ?_) (fun b o hc ht => ?_) hs' e ih.2⟩
      · subst hd; exact hS
      · subst hc
        rintro rfl
        exact hS ht

end
end B2
