import Verif.Proofs.WorldHeavy

/-! The fat boxes of a body through a step. -/
namespace B2
set_option linter.unusedSectionVars false
open World Spec

section
variable {F : Type} [Field F] [LinearOrder F] [IsStrictOrderedRing F] [Elem F]
variable {env : Env F} {b : Nat}

/-- The fat boxes of the live proxies of body `b` cover the boxes of its shapes at the transform. -/
def CoveredBy (b : Nat) (xf : Xf F) (w : World F) : Prop := ∀ f ∈ (w.g.bodies b).fixtures, ∀ i, Live w.g f i → CoversAt w xf f i

theorem covered_iff {w : World F} : Covered w b ↔ CoveredBy b (w.phys b).xf w := Iff.rfl

theorem CoveredBy.boxes {xf : Xf F} {w w' : World F} (h : CoveredBy b xf w) (hs : SameBoxes b w w') : CoveredBy b xf w' := by
  intro f hf i hi
  rw [hs.list] at hf
  rw [hs.live] at hi
  intro id hid
  rw [hs.fixtures] at hid
  rw [hs.fat f hf i id hi hid, hs.fixtures]
  exact h f hf i hi id hid

theorem CoveredBy.sync {w w' : World F} (hw : WInv w) (e : w.synchronizeFixtures b = some w') : CoveredBy b (w.phys b).xf w' := by
  obtain ⟨k1, k2, -⟩ := synchronizeFixtures_track hw e
  have hp : w'.phys = w.phys := by rw [k1.frame]
  rw [← hp]; exact k2

/-- Adding the boxes to what is known of a body that is not dynamic. `S` are the bodies that need no solution. -/
theorem Solves.boxed {step : TimeStep F} {g : Graph F} {G : Vec2 F} {al : Prop} {P0 P1 P2 : World F → Prop} {X : Xf F} {S K : Prop} (H : Solves env step g G al b P0 P1 P2)
    (hX : ∀ v, P1 v → (v.phys b).xf = X) (hS : ∀ v, P0 v → v.g = g → ((v.phys b).awake = false ∨ (v.g.bodies b).enabled = false ∨ v.typeOf b = .static) → S) :
    Solves env step g G al b (fun v => P0 v ∧ (K → S → CoveredBy b X v)) (fun v => P1 v ∧ (K → S → CoveredBy b X v)) (fun v => P2 v ∧ (K → CoveredBy b X v)) where
  p0 hs h := ⟨H.p0 hs h.1, fun k s => (h.2 k s).boxes hs.toSameBoxes⟩
  p1 hs h := ⟨H.p1 hs h.1, fun k s => (h.2 k s).boxes hs.toSameBoxes⟩
  p2 hs h := ⟨H.p2 hs h.1, fun k => (h.2 k).boxes hs.toSameBoxes⟩
  move h a1 a2 a3 a4 a5 a6 a7 a8 a9 b1 b2 := ⟨H.move h.1 a1 a2 a3 a4 a5 a6 a7 a8 a9 b1 b2, h.2⟩
  sleep ha h hn hr := ⟨H.sleep ha h.1 hn hr, h.2⟩
  again hst h := ⟨H.again hst h.1, h.2⟩
  sync := by
    intro v v' h hw hn e
    refine ⟨H.sync h.1 hw hn e, fun _ => ?_⟩
    rw [← hX v h.1]
    exact .sync hw e
  idle h hg hi := ⟨H.idle h.1 hg hi, fun k => h.2 k (hS _ h.1 hg hi)⟩

/-- Adding the boxes to what is known in the continuous phase of a body that is not dynamic. -/
theorem Follows.boxed {dt : F} {Full Done : World F → Prop} {Half : F → World F → Prop} {X : Xf F} {K : Prop} (H : Follows env dt b Full Half Done)
    (hd : ∀ v, Done v → v.typeOf b ≠ .dynamic) :
    Follows env dt b (fun v => Full v ∧ (K → CoveredBy b X v)) (fun a v => Half a v ∧ (K → CoveredBy b X v)) (fun v => Done v ∧ (K → CoveredBy b X v)) where
  full hs h := ⟨H.full hs h.1, fun k => (h.2 k).boxes hs.toSameBoxes⟩
  half hs h := ⟨H.half hs h.1, fun k => (h.2 k).boxes hs.toSameBoxes⟩
  done hs h := ⟨H.done hs h.1, fun k => (h.2 k).boxes hs.toSameBoxes⟩
  align h m a0 a1 e := ⟨H.align h.1 m a0 a1 e, h.2⟩
  advance := by
    intro v v' a h m a0 a1 e
    refine ⟨H.advance h.1 m a0 a1 e, fun k => ?_⟩
    obtain ⟨p, -, rfl, -⟩ := advance_eq e
    exact h.2 k
  restore := by
    intro v v1 v2 a h m e hs
    refine ⟨H.restore h.1 m e hs, fun k => ?_⟩
    obtain ⟨p, -, rfl, -⟩ := advance_eq e
    have : CoveredBy b X v2 := CoveredBy.boxes (w := v.setPhys b p) (h.2 k) hs.toSameBoxes
    exact this
  resync h := ⟨H.resync h.1, h.2⟩
  solve h a1 a2 a3 a4 a5 a6 a7 a8 a9 b1 b2 := ⟨H.solve h.1 a1 a2 a3 a4 a5 a6 a7 a8 a9 b1 b2, h.2⟩
  release h _ ht _ := absurd ht (hd _ h.1)
  stay h ht := ⟨H.stay h.1 ht, h.2⟩

/-! ### Dynamic bodies -/

/-- Dynamic and placed as its sweep says. -/
structure DynP (t : BodyType) (p : Phys F) : Prop where
  type : t = .dynamic
  posed : Posed p

theorem DynP.core {t : BodyType} {p q : Phys F} (h : DynP t p) (e : q.core = p.core) (_ : p.awake = true → q.awake = true) : DynP t q := by
  rw [core_eq e]; exact ⟨h.type, h.posed⟩

theorem spares_covered {w w' : World F} (h : Covered w b) (hs : Spares b w w') : Covered w' b := by
  have hc := hs.core
  have : (w'.phys b).xf = (w.phys b).xf := by rw [core_eq hc]
  rw [covered_iff, this]
  exact CoveredBy.boxes h hs.toSameBoxes

theorem dyn_solves {step : TimeStep F} {g : Graph F} {G : Vec2 F} {al : Prop} :
    Solves env step g G al b (fun v => At b DynP v ∧ Covered v b) (At b DynP) (fun v => At b DynP v ∧ Covered v b) where
  p0 hs h := ⟨h.1.spares hs (fun _ _ _ => DynP.core), spares_covered h.2 hs⟩
  p1 hs h := h.spares hs (fun _ _ _ => DynP.core)
  p2 hs h := ⟨h.1.spares hs (fun _ _ _ => DynP.core), spares_covered h.2 hs⟩
  move := by
    rintro v v1 isl states states' i ⟨h, -⟩ - - - - - - - - - - -
    rw [At.setPhys]
    exact ⟨h.type, write_posed _ _⟩
  sleep := by
    intro v _ h _ _
    unfold World.setAwake
    rw [At.setPhys]
    refine ⟨h.type, ?_⟩
    unfold Phys.setAwake
    split
    · exact h.posed
    · rw [if_neg (by decide)]
      exact h.posed
  again hst h := by
    have := h.type
    rw [hst] at this; cases this
  sync := by
    intro v v' h hw _ e
    obtain ⟨k, hc, -⟩ := synchronizeFixtures_track hw e
    have hg : v'.g = v.g := by rw [k.frame]
    have hp : v'.phys = v.phys := by rw [k.frame]
    refine ⟨?_, hc⟩
    unfold At World.typeOf
    rw [hg, hp]; exact h
  idle h _ _ := h

theorem dyn_follows {dt : F} : Follows env dt b (fun v => At b DynP v ∧ Covered v b) (fun _ v => v.typeOf b = .dynamic) (At b DynP) where
  full hs h := ⟨h.1.spares hs (fun _ _ _ => DynP.core), spares_covered h.2 hs⟩
  half hs h := hs.type.trans h
  done hs h := h.spares hs (fun _ _ _ => DynP.core)
  align := by
    intro v a s h _ _ _ e
    obtain ⟨-, rfl⟩ := Sweep.advance_eq e
    rw [At.setPhys]
    refine ⟨⟨h.1.type, h.1.posed⟩, ?_⟩
    rw [covered_iff]
    have : (v.setPhys b { v.phys b with sweep := { (v.phys b).sweep with c0 := (v.phys b).sweep.c0 + ((a - (v.phys b).sweep.alpha0) / (1 - (v.phys b).sweep.alpha0)) * ((v.phys b).sweep.c - (v.phys b).sweep.c0), a0 := (v.phys b).sweep.a0 + ((a - (v.phys b).sweep.alpha0) / (1 - (v.phys b).sweep.alpha0)) * ((v.phys b).sweep.a - (v.phys b).sweep.a0), alpha0 := a } }).phys b = _ := upd_same _ _ _
    rw [this]
    exact h.2
  advance := by
    intro v v' a h _ _ _ e
    obtain ⟨p, -, rfl, -⟩ := advance_eq e
    exact h.1.type
  restore := by
    intro v v1 v2 a h _ e hs
    obtain ⟨p, hp, rfl, -⟩ := advance_eq e
    unfold Phys.advance at hp
    simp only [Option.bind_eq_bind, Option.bind_eq_some_iff] at hp
    obtain ⟨s, -, hp⟩ := hp
    cases hp
    have ht : v2.typeOf b = v.typeOf b := hs.type
    have hb : CoveredBy b (v.phys b).xf v2 := CoveredBy.boxes (w := v.setPhys b _) h.2 hs.toSameBoxes
    unfold World.restore
    rw [At.setPhys, ht]
    refine ⟨⟨h.1.type, rfl⟩, ?_⟩
    rw [covered_iff]
    have hx : (v2.setPhys b (Phys.synchronizeTransform { v2.phys b with sweep := (v.phys b).sweep })).phys b =
      Phys.synchronizeTransform { v2.phys b with sweep := (v.phys b).sweep } := upd_same _ _ _
    rw [hx]
    have : (Phys.synchronizeTransform { v2.phys b with sweep := (v.phys b).sweep }).xf = (v.phys b).xf := h.1.posed.symm
    rw [this]
    exact hb
  resync h := h
  solve := by
    intro v v1 isl sub states i a h _ _ _ _ _ _ _ _ _ _ _
    rw [At.setPhys]
    exact ⟨h, write_posed _ _⟩
  release := by
    intro v v' h hw _ e
    obtain ⟨k, hc, -⟩ := synchronizeFixtures_track hw e
    have hg : v'.g = v.g := by rw [k.frame]
    have hp : v'.phys = v.phys := by rw [k.frame]
    refine ⟨?_, hc⟩
    unfold At World.typeOf
    rw [hg, hp]; exact h
  stay h hn := absurd h.type hn

/-- A step leaves a dynamic body in its boxes. -/
theorem dyn_step {w w' : World F} {dt : F} {vi pi : Nat} (hE : LeavesBodies env) (hP : PostSolveLinks env) (hT : ToiForward env)
    (hw : WInv w) (hc : w.stepComplete = true) (hb : b ∈ w.g.bodyList) (hposed : Posed (w.phys b)) (hty : w.typeOf b = .dynamic) (hcov : Covered w b)
    (e : w.step env dt vi pi = some w') : Covered w' b := by
  have fin : ∀ {u : World F}, Ended b u w' → Covered u b → Covered w' b := by
    intro u hu h
    have : (w'.phys b).xf = (u.phys b).xf := by rcases hu.phys with h | h <;> rw [h]
    rw [covered_iff, this]
    exact CoveredBy.boxes h (.same hu.g hu.bp)
  have cal : ∀ v, Calms b w v → At b DynP v ∧ Covered v b := by
    intro v hv
    have hx : (v.phys b).xf = (w.phys b).xf := by rw [core_eq hv.core]
    refine ⟨?_, ?_⟩
    · unfold At; rw [hv.type]; exact DynP.core ⟨hty, hposed⟩ hv.core hv.awake
    · rw [covered_iff, hx]; exact CoveredBy.boxes hcov hv.toSameBoxes
  obtain ⟨u, -, hu, h1, h2⟩ := step_track (b := b) hE hP hT hw hc hb (fun _ _ _ _ => dyn_solves) (fun _ => dyn_follows) cal
    (fun v u hv hs _ hp => by
      refine ⟨?_, ?_⟩
      · unfold At; rw [hs.type, hp]; exact ⟨hv.1.type, hv.1.posed⟩
      · have hx : (u.phys b).xf = (v.phys b).xf := by rw [hp]
        rw [covered_iff, hx]; exact CoveredBy.boxes hv.2 hs) e
  by_cases hpos : 0 < dt
  · rcases h1 hpos with h | ⟨h, -⟩
    · exact fin hu h.2
    · exact fin hu h.2
  · exact fin hu (cal u (h2 hpos)).2

end
end B2
