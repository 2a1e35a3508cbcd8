import Verif.Model.WorldStep

/-! What the numeric parts of the world model leave unchanged. -/
namespace B2
set_option linter.unusedSectionVars false

theorem foldlM_inv {α β : Type} {f : β → α → Option β} (P : β → Prop) {l : List α} {b b' : β}
    (h : l.foldlM f b = some b') (h0 : P b) (hs : ∀ x ∈ l, ∀ b b', P b → f b x = some b' → P b') : P b' := by
  induction l generalizing b with
  | nil => cases h; exact h0
  | cons a l ih =>
    rw [List.foldlM_cons] at h
    cases h1 : f b a with
    | none => rw [h1] at h; cases h
    | some b1 =>
      rw [h1] at h
      exact ih h (hs a (by simp) b b1 h0 h1) (fun x hx => hs x (by simp [hx]))

theorem foldl_inv {α β : Type} {f : β → α → β} (P : β → Prop) {l : List α} {b : β}
    (h0 : P b) (hs : ∀ x ∈ l, ∀ b, P b → P (f b x)) : P (l.foldl f b) := by
  induction l generalizing b with
  | nil => exact h0
  | cons a l ih => exact ih (hs a (by simp) b h0) (fun x hx => hs x (by simp [hx]))

section
variable {F : Type} [Field F] [LinearOrder F] [IsStrictOrderedRing F] [Elem F]

/-- Only numeric state, fixture attributes other than the filter data, and the event log differ. -/
structure WFrame (w w' : World F) : Prop where
  eq : w' = { w with phys := w'.phys, fattr := fun f => { w'.fattr f with filter := (w.fattr f).filter }, cst := w'.cst, jIsland := w'.jIsland, log := w'.log, tick := w'.tick }

namespace WFrame
variable {w w' w'' : World F}
theorem refl (w : World F) : WFrame w w := ⟨rfl⟩
theorem filter (h : WFrame w w') (f : Nat) : (w'.fattr f).filter = (w.fattr f).filter := by rw [h.eq]
theorem trans (h : WFrame w w') (h' : WFrame w' w'') : WFrame w w'' := ⟨by
  have e := h'.eq
  simp only [h.filter] at e
  rw [h.eq] at e
  exact e⟩
theorem g (h : WFrame w w') : w'.g = w.g := by rw [h.eq]
theorem bp (h : WFrame w w') : w'.bp = w.bp := by rw [h.eq]
theorem paabb (h : WFrame w w') : w'.paabb = w.paabb := by rw [h.eq]
theorem gravity (h : WFrame w w') : w'.gravity = w.gravity := by rw [h.eq]
theorem allowSleep (h : WFrame w w') : w'.allowSleep = w.allowSleep := by rw [h.eq]
theorem invDt0 (h : WFrame w w') : w'.invDt0 = w.invDt0 := by rw [h.eq]
theorem newContacts (h : WFrame w w') : w'.newContacts = w.newContacts := by rw [h.eq]
theorem locked (h : WFrame w w') : w'.locked = w.locked := by rw [h.eq]
theorem clearForces (h : WFrame w w') : w'.clearForces = w.clearForces := by rw [h.eq]
theorem continuous (h : WFrame w w') : w'.continuous = w.continuous := by rw [h.eq]
theorem subStepping (h : WFrame w w') : w'.subStepping = w.subStepping := by rw [h.eq]
theorem stepComplete (h : WFrame w w') : w'.stepComplete = w.stepComplete := by rw [h.eq]
theorem warmStarting (h : WFrame w w') : w'.warmStarting = w.warmStarting := by rw [h.eq]
theorem typeOf (h : WFrame w w') (b : Nat) : w'.typeOf b = w.typeOf b := by rw [World.typeOf, h.g]; rfl
theorem bodyOf (h : WFrame w w') (f : Nat) : w'.bodyOf f = w.bodyOf f := by rw [World.bodyOf, h.g]; rfl
end WFrame

/-- Only lists, proxies, numeric state and the event log differ: the settings are the same. -/
structure Rest (w w' : World F) : Prop where
  eq : w' = { w with g := w'.g, bp := w'.bp, paabb := w'.paabb, phys := w'.phys, fattr := w'.fattr, cst := w'.cst,
                     jIsland := w'.jIsland, log := w'.log, tick := w'.tick }

namespace Rest
variable {w w' w'' : World F}
theorem refl (w : World F) : Rest w w := ⟨rfl⟩
theorem trans (h : Rest w w') (h' : Rest w' w'') : Rest w w'' := ⟨by rw [h'.eq, h.eq]⟩
theorem gravity (h : Rest w w') : w'.gravity = w.gravity := by rw [h.eq]
theorem allowSleep (h : Rest w w') : w'.allowSleep = w.allowSleep := by rw [h.eq]
theorem invDt0 (h : Rest w w') : w'.invDt0 = w.invDt0 := by rw [h.eq]
theorem newContacts (h : Rest w w') : w'.newContacts = w.newContacts := by rw [h.eq]
theorem locked (h : Rest w w') : w'.locked = w.locked := by rw [h.eq]
theorem clearForces (h : Rest w w') : w'.clearForces = w.clearForces := by rw [h.eq]
theorem continuous (h : Rest w w') : w'.continuous = w.continuous := by rw [h.eq]
theorem subStepping (h : Rest w w') : w'.subStepping = w.subStepping := by rw [h.eq]
theorem stepComplete (h : Rest w w') : w'.stepComplete = w.stepComplete := by rw [h.eq]
theorem warmStarting (h : Rest w w') : w'.warmStarting = w.warmStarting := by rw [h.eq]
end Rest

theorem WFrame.rest {w w' : World F} (h : WFrame w w') : Rest w w' := ⟨by rw [h.eq]⟩

/-- The part of a contact that neither user code nor a contact update changes. -/
structure CFlags (F : Type) where
  island : Bool
  filter : Bool
  toiFlag : Bool
  toiCount : Nat
  toi : F

def cflags (s : CState F) : CFlags F := ⟨s.island, s.filter, s.toiFlag, s.toiCount, s.toi⟩

/-- The engine's flags of contacts, joints and bodies are unchanged, except the touching flags. -/
structure Calm0 (w w' : World F) : Prop where
  flags : ∀ c, cflags (w'.cst c) = cflags (w.cst c)
  jIsland : w'.jIsland = w.jIsland
  island : ∀ b, (w'.phys b).island = (w.phys b).island
  islandIndex : ∀ b, (w'.phys b).islandIndex = (w.phys b).islandIndex
  alpha0 : ∀ b, (w'.phys b).sweep.alpha0 = (w.phys b).sweep.alpha0
  type : ∀ b, w'.typeOf b = w.typeOf b
  awake : ∀ b, w.typeOf b = .static → (w'.phys b).awake = (w.phys b).awake

namespace Calm0
variable {w w' w'' : World F}
theorem refl (w : World F) : Calm0 w w := ⟨fun _ => rfl, rfl, fun _ => rfl, fun _ => rfl, fun _ => rfl, fun _ => rfl, fun _ _ => rfl⟩
theorem trans (h : Calm0 w w') (h' : Calm0 w' w'') : Calm0 w w'' :=
  ⟨fun c => (h'.flags c).trans (h.flags c), h'.jIsland.trans h.jIsland,
    fun b => (h'.island b).trans (h.island b), fun b => (h'.islandIndex b).trans (h.islandIndex b), fun b => (h'.alpha0 b).trans (h.alpha0 b),
    fun b => (h'.type b).trans (h.type b), fun b hb => (h'.awake b (by rw [h.type]; exact hb)).trans (h.awake b hb)⟩
theorem filter (h : Calm0 w w') (c : Nat) : (w'.cst c).filter = (w.cst c).filter := congrArg CFlags.filter (h.flags c)
theorem cisland (h : Calm0 w w') (c : Nat) : (w'.cst c).island = (w.cst c).island := congrArg CFlags.island (h.flags c)
theorem toiFlag (h : Calm0 w w') (c : Nat) : (w'.cst c).toiFlag = (w.cst c).toiFlag := congrArg CFlags.toiFlag (h.flags c)
theorem toiCount (h : Calm0 w w') (c : Nat) : (w'.cst c).toiCount = (w.cst c).toiCount := congrArg CFlags.toiCount (h.flags c)
theorem toi (h : Calm0 w w') (c : Nat) : (w'.cst c).toi = (w.cst c).toi := congrArg CFlags.toi (h.flags c)
end Calm0

/-- The engine's flags of contacts, joints and bodies are unchanged. -/
structure Calm (w w' : World F) : Prop extends Calm0 w w' where
  touching : ∀ c, (w'.cst c).touching = (w.cst c).touching

namespace Calm
variable {w w' w'' : World F}
theorem refl (w : World F) : Calm w w := ⟨.refl w, fun _ => rfl⟩
theorem trans (h : Calm w w') (h' : Calm w' w'') : Calm w w'' :=
  ⟨h.toCalm0.trans h'.toCalm0, fun c => (h'.touching c).trans (h.touching c)⟩
end Calm

/-- What user calls leave unchanged. -/
structure Quiet (w w' : World F) : Prop extends WFrame w w', Calm w w'

namespace Quiet
variable {w w' w'' : World F}
theorem refl (w : World F) : Quiet w w := ⟨.refl w, .refl w⟩
theorem trans (h : Quiet w w') (h' : Quiet w' w'') : Quiet w w'' := ⟨h.toWFrame.trans h'.toWFrame, h.toCalm.trans h'.toCalm⟩
end Quiet

theorem proj_upd {α β : Type} (p : α → β) {f : Nat → α} {a : Nat} {x : α} (h : p x = p (f a)) (b : Nat) :
    p (upd f a x b) = p (f b) := by
  by_cases hb : b = a
  · subst hb; rw [upd_same, h]
  · rw [upd_other _ _ hb]

/-! ### Bodies -/

/-- What body functions leave unchanged. -/
structure PQuiet (t : BodyType) (p p' : Phys F) : Prop where
  island : p'.island = p.island
  islandIndex : p'.islandIndex = p.islandIndex
  alpha0 : p'.sweep.alpha0 = p.sweep.alpha0
  awake : t = .static → p'.awake = p.awake

theorem PQuiet.refl (t : BodyType) (p : Phys F) : PQuiet t p p := ⟨rfl, rfl, rfl, fun _ => rfl⟩
theorem PQuiet.trans {t : BodyType} {p p' p'' : Phys F} (h : PQuiet t p p') (h' : PQuiet t p' p'') : PQuiet t p p'' :=
  ⟨h'.island.trans h.island, h'.islandIndex.trans h.islandIndex, h'.alpha0.trans h.alpha0, fun ht => (h'.awake ht).trans (h.awake ht)⟩

theorem setAwake_pquiet (t : BodyType) (p : Phys F) (flag : Bool) : PQuiet t p (p.setAwake t flag) := by
  unfold Phys.setAwake
  by_cases ht : t = .static
  · rw [if_pos ht]; exact .refl _ _
  · rw [if_neg ht]; split <;> exact ⟨rfl, rfl, rfl, fun h => absurd h ht⟩

theorem applyGate_pquiet (t : BodyType) (p : Phys F) (flag : Bool) : PQuiet t p (p.applyGate t flag).1 := by
  unfold Phys.applyGate
  split
  · exact .refl _ _
  · dsimp only
    split
    · exact setAwake_pquiet _ _ _
    · exact .refl _ _

theorem resetMassData_pquiet {t : BodyType} {fs : List (F × Shape F)} {p p' : Phys F} (h : p.resetMassData t fs = some p') :
    PQuiet t p p' := by
  unfold Phys.resetMassData at h
  by_cases ht : t = .static ∨ t = .kinematic
  · simp only [if_pos ht] at h
    cases h
    exact ⟨rfl, rfl, rfl, fun _ => rfl⟩
  · simp only [if_neg ht] at h
    cases hm : massLoop fs ⟨0, ⟨0, 0⟩, 0⟩ with
    | none => simp [hm] at h
    | some acc =>
      simp only [hm, Option.bind_eq_bind, Option.bind_some] at h
      generalize (if acc.mass > 0 then 1 / acc.mass else 0) = im at h
      generalize (if acc.mass > 0 then im * acc.center else acc.center) = ce at h
      split at h
      · split at h
        · cases h; exact ⟨rfl, rfl, rfl, fun _ => rfl⟩
        · cases h
      · cases h; exact ⟨rfl, rfl, rfl, fun _ => rfl⟩

theorem bodyOp_pquiet {t : BodyType} {fs : List (F × Shape F)} {p p' : Phys F} {op : BodyOp F} (h : op.run t fs p = some p') :
    PQuiet t p p' := by
  cases op with
  | setAwake f => cases h; exact setAwake_pquiet _ _ _
  | setLinearVelocity v =>
    cases h
    unfold Phys.setLinearVelocity
    split
    · exact .refl _ _
    · dsimp only
      split
      · exact (setAwake_pquiet t p true).trans ⟨rfl, rfl, rfl, fun _ => rfl⟩
      · exact ⟨rfl, rfl, rfl, fun _ => rfl⟩
  | setAngularVelocity v =>
    cases h
    unfold Phys.setAngularVelocity
    split
    · exact .refl _ _
    · dsimp only
      split
      · exact (setAwake_pquiet t p true).trans ⟨rfl, rfl, rfl, fun _ => rfl⟩
      · exact ⟨rfl, rfl, rfl, fun _ => rfl⟩
  | applyForce f x k =>
    cases h
    unfold Phys.applyForce
    refine (applyGate_pquiet t p k).trans ?_
    dsimp only
    split <;> exact ⟨rfl, rfl, rfl, fun _ => rfl⟩
  | applyForceToCenter f k =>
    cases h
    unfold Phys.applyForceToCenter
    refine (applyGate_pquiet t p k).trans ?_
    dsimp only
    split <;> exact ⟨rfl, rfl, rfl, fun _ => rfl⟩
  | applyTorque f k =>
    cases h
    unfold Phys.applyTorque
    refine (applyGate_pquiet t p k).trans ?_
    dsimp only
    split <;> exact ⟨rfl, rfl, rfl, fun _ => rfl⟩
  | applyLinearImpulse f x k =>
    cases h
    unfold Phys.applyLinearImpulse
    refine (applyGate_pquiet t p k).trans ?_
    dsimp only
    split <;> exact ⟨rfl, rfl, rfl, fun _ => rfl⟩
  | applyLinearImpulseToCenter f k =>
    cases h
    unfold Phys.applyLinearImpulseToCenter
    refine (applyGate_pquiet t p k).trans ?_
    dsimp only
    split <;> exact ⟨rfl, rfl, rfl, fun _ => rfl⟩
  | applyAngularImpulse f k =>
    cases h
    unfold Phys.applyAngularImpulse
    refine (applyGate_pquiet t p k).trans ?_
    dsimp only
    split <;> exact ⟨rfl, rfl, rfl, fun _ => rfl⟩
  | setSleepingAllowed f =>
    cases h
    unfold Phys.setSleepingAllowed
    dsimp only
    split
    · exact ⟨rfl, rfl, rfl, fun _ => rfl⟩
    · exact PQuiet.trans (p' := { p with autoSleep := f }) ⟨rfl, rfl, rfl, fun _ => rfl⟩ (setAwake_pquiet t _ true)
  | setFixedRotation f =>
    simp only [BodyOp.run, Phys.setFixedRotation] at h
    split at h
    · cases h; exact .refl _ _
    · exact PQuiet.trans (p' := { p with fixedRotation := f, w := 0 }) ⟨rfl, rfl, rfl, fun _ => rfl⟩ (resetMassData_pquiet h)
  | resetMassData => exact resetMassData_pquiet h
  | setBullet f => cases h; exact ⟨rfl, rfl, rfl, fun _ => rfl⟩
  | setLinearDamping f => cases h; exact ⟨rfl, rfl, rfl, fun _ => rfl⟩
  | setAngularDamping f => cases h; exact ⟨rfl, rfl, rfl, fun _ => rfl⟩
  | setGravityScale f => cases h; exact ⟨rfl, rfl, rfl, fun _ => rfl⟩

theorem setMassData_pquiet {t : BodyType} {m : MassData F} {p p' : Phys F} (h : p.setMassData t m = some p') : PQuiet t p p' := by
  unfold Phys.setMassData at h
  split at h
  · cases h; exact .refl _ _
  · dsimp only at h
    generalize (if m.mass ≤ 0 then 1 else m.mass) = mm at h
    split at h
    · split at h
      · cases h; exact ⟨rfl, rfl, rfl, fun _ => rfl⟩
      · cases h
    · cases h; exact ⟨rfl, rfl, rfl, fun _ => rfl⟩

namespace World

theorem setPhys_frame (w : World F) (b : Nat) (p : Phys F) : WFrame w (w.setPhys b p) := ⟨rfl⟩
theorem setCst_frame (w : World F) (c : Nat) (s : CState F) : WFrame w (w.setCst c s) := ⟨rfl⟩

theorem setPhys_quiet {w : World F} {b : Nat} {p : Phys F} (h : PQuiet (w.typeOf b) (w.phys b) p) : Quiet w (w.setPhys b p) := by
  refine ⟨⟨rfl⟩, ⟨fun _ => rfl, rfl, fun x => ?_, fun x => ?_, fun x => ?_, fun _ => rfl, fun x hx => ?_⟩, fun _ => rfl⟩
  · exact proj_upd (fun q : Phys F => q.island) h.island x
  · exact proj_upd (fun q : Phys F => q.islandIndex) h.islandIndex x
  · exact proj_upd (fun q : Phys F => q.sweep.alpha0) h.alpha0 x
  · by_cases hb : x = b
    · subst hb
      show (upd w.phys x p x).awake = _
      rw [upd_same]; exact h.awake hx
    · show (upd w.phys b p x).awake = _
      rw [upd_other _ _ hb]

theorem setCst_calm0 {w : World F} {c : Nat} {s : CState F} (h : cflags s = cflags (w.cst c)) : Calm0 w (w.setCst c s) :=
  ⟨fun x => proj_upd cflags h x, rfl, fun _ => rfl, fun _ => rfl, fun _ => rfl, fun _ => rfl, fun _ _ => rfl⟩

theorem setCst_quiet {w : World F} {c : Nat} {s : CState F} (h : cflags s = cflags (w.cst c))
    (h2 : s.touching = (w.cst c).touching) : Quiet w (w.setCst c s) :=
  ⟨⟨rfl⟩, setCst_calm0 h, fun x => proj_upd (fun q : CState F => q.touching) h2 x⟩

theorem setFattr_frame {w : World F} {f : Nat} {s : FAttr F} (h : s.filter = (w.fattr f).filter) : WFrame w (w.setFattr f s) := by
  refine ⟨?_⟩
  have : (w.setFattr f s).fattr = fun x => { (w.setFattr f s).fattr x with filter := (w.fattr x).filter } := by
    funext x
    have e : ((w.setFattr f s).fattr x).filter = (w.fattr x).filter := proj_upd (fun q : FAttr F => q.filter) h x
    rw [← e]
  rw [← this]
  rfl

theorem setFattr_quiet {w : World F} {f : Nat} {s : FAttr F} (h : s.filter = (w.fattr f).filter) : Quiet w (w.setFattr f s) :=
  ⟨setFattr_frame h, ⟨fun _ => rfl, rfl, fun _ => rfl, fun _ => rfl, fun _ => rfl, fun _ => rfl, fun _ _ => rfl⟩, fun _ => rfl⟩

theorem setAwake_quiet (w : World F) (b : Nat) (flag : Bool) : Quiet w (w.setAwake b flag) := setPhys_quiet (setAwake_pquiet _ _ _)

theorem setAwake_log (w : World F) (b : Nat) (flag : Bool) : (w.setAwake b flag).log = w.log := rfl

theorem bodyOp_quiet {w w' : World F} {b : Nat} {op : BodyOp F} (h : w.bodyOp b op = some w') : Quiet w w' ∧ w'.log = w.log := by
  unfold bodyOp at h
  cases h1 : op.run (w.typeOf b) (w.massList b) (w.phys b) with
  | none => simp [h1] at h
  | some p =>
    simp only [h1, Option.bind_eq_bind, Option.bind_some] at h
    cases h
    exact ⟨setPhys_quiet (bodyOp_pquiet h1), rfl⟩

theorem setSensor_quiet {w w' : World F} {f : Nat} {flag : Bool} (h : w.setSensor f flag = some w') : Quiet w w' ∧ w'.log = w.log := by
  unfold setSensor at h
  split at h
  · cases hb : w.bodyOf f with
    | none => simp [hb] at h
    | some b =>
      simp only [hb, Option.bind_eq_bind, Option.bind_some] at h
      cases h
      exact ⟨(setAwake_quiet w b true).trans (setFattr_quiet (by rfl)), rfl⟩
  · cases h; exact ⟨.refl _, rfl⟩

theorem userOp_quiet {w w' : World F} {op : UserOp F} (h : w.userOp op = some w') : Quiet w w' ∧ w'.log = w.log := by
  cases op with
  | body b op => exact bodyOp_quiet h
  | fixtureSetSensor f x => exact setSensor_quiet h
  | fixtureSetDensity f x =>
    simp only [userOp] at h
    split at h
    · cases h; exact ⟨setFattr_quiet (by rfl), rfl⟩
    · cases h
  | fixtureSetFriction f x => cases h; exact ⟨setFattr_quiet (by rfl), rfl⟩
  | fixtureSetRestitution f x => cases h; exact ⟨setFattr_quiet (by rfl), rfl⟩
  | fixtureSetRestitutionThreshold f x => cases h; exact ⟨setFattr_quiet (by rfl), rfl⟩
  | contactSetEnabled c x => cases h; exact ⟨setCst_quiet rfl rfl, rfl⟩
  | contactSetManifold c x => cases h; exact ⟨setCst_quiet rfl rfl, rfl⟩
  | contactSetFriction c x => cases h; exact ⟨setCst_quiet rfl rfl, rfl⟩
  | contactSetRestitution c x => cases h; exact ⟨setCst_quiet rfl rfl, rfl⟩
  | contactSetRestitutionThreshold c x => cases h; exact ⟨setCst_quiet rfl rfl, rfl⟩
  | contactSetTangentSpeed c x => cases h; exact ⟨setCst_quiet rfl rfl, rfl⟩

theorem emit_quiet {env : Env F} {w w' : World F} {k : EventKind} (h : w.emit env k = some w') :
    Quiet w w' ∧ w'.log = ⟨k, w.locked⟩ :: w.log := by
  unfold emit at h
  refine foldlM_inv (fun x : World F => Quiet w x ∧ x.log = ⟨k, w.locked⟩ :: w.log) h ⟨?_, rfl⟩ ?_
  · exact ⟨⟨rfl⟩, ⟨fun _ => rfl, rfl, fun _ => rfl, fun _ => rfl, fun _ => rfl, fun _ => rfl, fun _ _ => rfl⟩, fun _ => rfl⟩
  · rintro op - b b' ⟨h1, h2⟩ h3
    obtain ⟨h4, h5⟩ := userOp_quiet h3
    exact ⟨h1.trans h4, h5.trans h2⟩

theorem listen_quiet {env : Env F} {w w' : World F} {k : EventKind} (h : w.listen env k = some w') :
    Quiet w w' ∧ w'.log = if env.listener then ⟨k, w.locked⟩ :: w.log else w.log := by
  unfold listen at h
  split at h
  · rename_i hl; simpa [hl] using emit_quiet h
  · rename_i hl; cases h; exact ⟨.refl _, by simp [hl]⟩

theorem goodbye_quiet {env : Env F} {w w' : World F} {k : EventKind} (h : w.goodbye env k = some w') :
    Quiet w w' ∧ w'.log = if env.destruction then ⟨k, w.locked⟩ :: w.log else w.log := by
  unfold goodbye at h
  split at h
  · rename_i hl; simpa [hl] using emit_quiet h
  · rename_i hl; cases h; exact ⟨.refl _, by simp [hl]⟩

theorem filterCollide_quiet (env : Env F) (w : World F) (fA fB : Nat) : Quiet w (w.filterCollide env fA fB).2 := by
  unfold filterCollide
  split
  · exact .refl _
  · exact ⟨⟨rfl⟩, ⟨fun _ => rfl, rfl, fun _ => rfl, fun _ => rfl, fun _ => rfl, fun _ => rfl, fun _ _ => rfl⟩, fun _ => rfl⟩

theorem filterCollide_log (env : Env F) (w : World F) (fA fB : Nat) :
    (w.filterCollide env fA fB).2.log = if env.filter.isSome then ⟨.filter fA fB, w.locked⟩ :: w.log else w.log := by
  unfold filterCollide
  cases h : env.filter <;> simp

theorem wakeOnDestroy_quiet (w : World F) (k : ConS) (c bA bB : Nat) : Quiet w (w.wakeOnDestroy k c bA bB) := by
  unfold wakeOnDestroy
  split
  · exact (setAwake_quiet w bA true).trans (setAwake_quiet _ bB true)
  · exact .refl _

theorem wakeOnDestroy_log (w : World F) (k : ConS) (c bA bB : Nat) : (w.wakeOnDestroy k c bA bB).log = w.log := by
  unfold wakeOnDestroy
  split <;> rfl

/-! ### Contact updates -/

theorem refresh_spec {env : Env F} {w w' : World F} {c : Nat} (h : w.refresh env c = some w') :
    WFrame w w' ∧ Calm0 w w' ∧ w'.log = w.log ∧ ∀ c', c' ≠ c → (w'.cst c').touching = (w.cst c').touching := by
  unfold refresh at h
  set w1 := w.setCst c { w.cst c with enabled := true } with hw1
  have q1 : Quiet w w1 := setCst_quiet rfl rfl
  have l1 : w1.log = w.log := rfl
  clear_value w1
  dsimp only at h
  cases hA : w1.bodyOf (w1.g.contacts c).fA with
  | none => simp [hA] at h
  | some bA =>
    cases hB : w1.bodyOf (w1.g.contacts c).fB with
    | none => simp [hA, hB] at h
    | some bB =>
      simp only [hA, hB, Option.bind_eq_bind, Option.bind_some] at h
      have key : ∀ (w2 : World F) (s : CState F), Quiet w w2 → w2.log = w.log → cflags s = cflags (w2.cst c) →
          WFrame w (w2.setCst c s) ∧ Calm0 w (w2.setCst c s) ∧ (w2.setCst c s).log = w.log ∧
            ∀ c', c' ≠ c → ((w2.setCst c s).cst c').touching = (w.cst c').touching := by
        intro w2 s hq hl hs
        refine ⟨hq.toWFrame.trans ⟨rfl⟩, hq.toCalm0.trans (setCst_calm0 hs), hl, fun c' hc => ?_⟩
        show (upd w2.cst c s c').touching = _
        rw [upd_other _ _ hc, hq.touching]
      split at h
      · rw [Option.bind_eq_some_iff] at h
        obtain ⟨t, -, h⟩ := h
        cases h
        exact key _ _ q1 l1 rfl
      · rw [Option.bind_eq_some_iff] at h
        obtain ⟨m, -, h⟩ := h
        cases h
        refine key _ _ ?_ ?_ rfl
        · split
          · refine Quiet.trans ?_ (setAwake_quiet _ _ _)
            refine Quiet.trans ?_ (setAwake_quiet _ _ _)
            exact q1.trans (setCst_quiet rfl rfl)
          · exact q1.trans (setCst_quiet rfl rfl)
        · split <;> exact l1

/-- The callbacks of one contact update. -/
def updateEvents (env : Env F) (c : Nat) (locked was now sensor : Bool) : List Event :=
  if env.listener then
    (if sensor = false ∧ now = true then [⟨.preSolve c, locked⟩] else []) ++
    (if was = true ∧ now = false then [⟨.endContact c, locked⟩] else []) ++
    (if was = false ∧ now = true then [⟨.beginContact c, locked⟩] else [])
  else []

theorem listen_if {env : Env F} {w w' : World F} {k : EventKind} {P : Prop} [Decidable P]
    (h : (if P then w.listen env k else some w) = some w') :
    Quiet w w' ∧ w'.log = (if env.listener then (if P then [⟨k, w.locked⟩] else []) else []) ++ w.log := by
  split at h
  · rename_i hp
    obtain ⟨h1, h2⟩ := listen_quiet h
    refine ⟨h1, ?_⟩
    rw [h2]
    split <;> simp [hp]
  · rename_i hp
    cases h
    exact ⟨.refl _, by simp [hp]⟩

theorem contactUpdate_spec {env : Env F} {w w' : World F} {c : Nat} (h : w.contactUpdate env c = some w') :
    WFrame w w' ∧ Calm0 w w' ∧ (∀ c', c' ≠ c → (w'.cst c').touching = (w.cst c').touching) ∧
    w'.log = updateEvents env c w.locked (w.cst c).touching (w'.cst c).touching (w.sensorContact c) ++ w.log := by
  unfold contactUpdate at h
  simp only [Option.bind_eq_bind, Option.bind_eq_some_iff] at h
  obtain ⟨w1, h1, w2, h2, w3, h3, h4⟩ := h
  obtain ⟨f1, c1, l1, t1⟩ := refresh_spec h1
  obtain ⟨q2, l2⟩ := listen_if h2
  obtain ⟨q3, l3⟩ := listen_if h3
  obtain ⟨q4, l4⟩ := listen_if h4
  have q : Quiet w1 w' := (q2.trans q3).trans q4
  refine ⟨f1.trans q.toWFrame, c1.trans q.toCalm0, fun c' hc => (q.touching c').trans (t1 c' hc), ?_⟩
  rw [l4, l3, l2, l1, q.touching, q3.locked, q2.locked, f1.locked]
  unfold updateEvents sensorContact
  split <;> simp

end World
end
end B2
