import Verif.Proofs.WorldBoxes

/-! Disabled bodies through a step. -/
namespace B2
set_option linter.unusedSectionVars false
open World Spec

section
variable {F : Type} [Field F] [LinearOrder F] [IsStrictOrderedRing F] [Elem F]
variable {env : Env F} {b : Nat}

/-- Nothing has happened to the body. -/
structure Left (T : BodyType) (p0 : Phys F) (t : BodyType) (p : Phys F) : Prop where
  type : t = T
  core : p.core = p0.core
  wake : p0.awake = true → p.awake = true

theorem Left.same {T t : BodyType} {p0 p q : Phys F} (h : Left T p0 t p) (e : q.core = p.core) (ha : p.awake = true → q.awake = true) : Left T p0 t q :=
  ⟨h.type, e.trans h.core, fun k => ha (h.wake k)⟩

theorem off_solves {step : TimeStep F} {g : Graph F} {G : Vec2 F} {al : Prop} {T : BodyType} {p0 : Phys F} (hd : (g.bodies b).enabled = false) :
    Solves env step g G al b (fun v => At b (Left T p0) v) (fun _ => False) (fun v => At b (Left T p0) v ∧ (v.g.bodies b).enabled = false) where
  p0 hs h := h.spares hs (fun _ _ _ => Left.same)
  p1 _ h := h.elim
  p2 hs h := ⟨h.1.spares hs (fun _ _ _ => Left.same), hs.enabled.trans h.2⟩
  move := by
    intro v v1 isl states states' i _ _ hen
    rw [hd] at hen; cases hen
  sleep _ h _ _ := h.elim
  again _ h := h.elim
  sync h _ _ _ := h.elim
  idle h hg _ := ⟨h, by rw [hg]; exact hd⟩

theorem off_follows {dt : F} {T : BodyType} {p0 : Phys F} :
    Follows env dt b (fun v => At b (Left T p0) v ∧ (v.g.bodies b).enabled = false) (fun _ _ => False) (fun _ => False) where
  full hs h := ⟨h.1.spares hs (fun _ _ _ => Left.same), hs.enabled.trans h.2⟩
  half _ h := h.elim
  done _ h := h.elim
  align h m _ _ _ := by have := m.2; rw [h.2] at this; cases this
  advance h m _ _ _ := by have := m.2; rw [h.2] at this; cases this
  restore h m _ _ := by have := m.2; rw [h.2] at this; cases this
  resync h := h.elim
  solve h := h.elim
  release h _ _ _ := h.elim
  stay h _ := h.elim

/-- Nothing happens to a disabled body in a step; only its forces are cleared. -/
theorem off_step {w w' : World F} {dt : F} {vi pi : Nat} (hE : LeavesBodies env) (hP : PostSolveLinks env) (hT : ToiForward env)
    (hw : WInv w) (hc : w.stepComplete = true) (hb : b ∈ w.g.bodyList) (hd : (w.g.bodies b).enabled = false)
    (e : w.step env dt vi pi = some w') :
    w'.typeOf b = w.typeOf b ∧ (w'.phys b).xf = (w.phys b).xf ∧ (w'.phys b).v = (w.phys b).v ∧ (w'.phys b).w = (w.phys b).w ∧
      (w'.phys b).sweep = { (w.phys b).sweep with alpha0 := (w'.phys b).sweep.alpha0 } ∧ ((w.phys b).awake = true → (w'.phys b).awake = true) := by
  have fin : ∀ {u : World F}, Ended b u w' → Left (w.typeOf b) (w.phys b) (u.typeOf b) (u.phys b) ∨ Left (w.typeOf b) { w.phys b with sweep := { (w.phys b).sweep with alpha0 := 0 } } (u.typeOf b) (u.phys b) →
      w'.typeOf b = w.typeOf b ∧ (w'.phys b).xf = (w.phys b).xf ∧ (w'.phys b).v = (w.phys b).v ∧ (w'.phys b).w = (w.phys b).w ∧
      (w'.phys b).sweep = { (w.phys b).sweep with alpha0 := (w'.phys b).sweep.alpha0 } ∧ ((w.phys b).awake = true → (w'.phys b).awake = true) := by
    intro u hu h
    have htt : w'.typeOf b = u.typeOf b := by unfold World.typeOf; rw [hu.g]
    have key : (u.phys b).xf = (w.phys b).xf ∧ (u.phys b).v = (w.phys b).v ∧ (u.phys b).w = (w.phys b).w ∧
      (u.phys b).sweep = { (w.phys b).sweep with alpha0 := (u.phys b).sweep.alpha0 } ∧ ((w.phys b).awake = true → (u.phys b).awake = true) ∧ u.typeOf b = w.typeOf b := by
      rcases h with h | h
      · have := h.wake
        have ht := h.type
        rw [core_eq h.core] at this ⊢
        exact ⟨rfl, rfl, rfl, rfl, this, ht⟩
      · have := h.wake
        have ht := h.type
        rw [core_eq h.core] at this ⊢
        exact ⟨rfl, rfl, rfl, rfl, this, ht⟩
    obtain ⟨k1, k2, k3, k4, k5, k6⟩ := key
    rcases hu.phys with hp | hp <;> rw [hp, htt] <;> exact ⟨k6, k1, k2, k3, k4, k5⟩
  obtain ⟨u, -, hu, h1, h2⟩ := step_track (b := b) (P0 := fun v => At b (Left (w.typeOf b) (w.phys b)) v)
    (Full := fun v => At b (Left (w.typeOf b) { w.phys b with sweep := { (w.phys b).sweep with alpha0 := 0 } }) v ∧ (v.g.bodies b).enabled = false) hE hP hT hw hc hb
    (fun _ g _ hl => off_solves (by rw [hl.body]; exact hd)) (fun _ => off_follows)
    (fun v hv => by unfold At; rw [hv.type]; exact ⟨rfl, hv.core, hv.awake⟩)
    (fun v u hv hs _ hp => by
      refine ⟨?_, hs.enabled.trans hv.2⟩
      unfold At
      rw [hs.type, hp]
      refine ⟨hv.1.type, ?_, hv.1.wake⟩
      rw [core_eq hv.1.core]
      rfl) e
  by_cases hpos : 0 < dt
  · rcases h1 hpos with h | ⟨h, -⟩
    · exact fin hu (.inr h.1)
    · exact fin hu (.inl h.1)
  · refine fin hu (.inl ?_)
    have h := h2 hpos
    rw [h.type]
    exact ⟨rfl, h.core, h.awake⟩

end
end B2
