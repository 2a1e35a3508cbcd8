import Verif.Proofs.WorldTrack
import Verif.Proofs.WorldTotal
import Verif.Proofs.WorldTimer

/-! Following one body through the continuous phase of a step. -/
namespace B2
set_option linter.unusedSectionVars false
open World Spec

section
variable {F : Type} [Field F] [LinearOrder F] [IsStrictOrderedRing F] [Elem F]

/-- Writing a solver state to a body. -/
def Phys.write (p : Phys F) (s : BState F) : Phys F :=
  Phys.synchronizeTransform { p with sweep := { p.sweep with c := s.c, a := s.a }, v := s.v, w := s.w }

/-- The body has contacts and is enabled. -/
def Act (g : Graph F) (b : Nat) : Prop := Met g b ∧ (g.bodies b).enabled = true

/-- What may be known about body `b` while the island around a time of impact is built: `Full` at the end of its
motion, `Half a` having been brought to time `a`. -/
structure Follows0 (b : Nat) (Full : World F → Prop) (Half : F → World F → Prop) : Prop where
  full : ∀ {v v'}, Spares b v v' → Full v → Full v'
  half : ∀ {a v v'}, Spares b v v' → Half a v → Half a v'
  advance : ∀ {v v' a}, Full v → Act v.g b → 0 ≤ a → a < 1 → v.advance b a = some v' → Half a v'
  restore : ∀ {v v1 v2 a}, Full v → Act v.g b → v.advance b a = some v1 → Spares b v1 v2 → Full (v2.restore b (v.phys b).sweep)
  resync : ∀ {v a}, Half a v → Half a (v.restore b (v.phys b).sweep)

/-- What may be known about body `b` during the continuous phase: `Full` at the end of its motion, `Half a` having been brought to time
`a`, `Done` after the sub-step. -/
structure Follows (env : Env F) (dt : F) (b : Nat) (Full : World F → Prop) (Half : F → World F → Prop) (Done : World F → Prop) : Prop extends Follows0 b Full Half where
  done : ∀ {v v'}, Spares b v v' → Done v → Done v'
  align : ∀ {v a s}, Full v → Act v.g b → 0 ≤ a → a < 1 → (v.phys b).sweep.advance a = some s → Full (v.setPhys b { v.phys b with sweep := s })
  solve : ∀ {v v1 : World F} {isl sub states} {i : Nat} {a}, Half a v → Act v.g b → 0 ≤ a → a < 1 → sub.dt = (1 - a) * dt → isl.bodies[i]? = some b →
    Fitted v isl → Fitted v1 isl → 2 ≤ isl.bodies.length →
    states[i]? = some ⟨(env.toiPos v isl sub i).1, (env.toiPos v isl sub i).2, (v.phys b).v, (v.phys b).w⟩ →
    (v1.phys b = v.phys b ∨ v1.phys b = { v.phys b with sweep := { (v.phys b).sweep with c0 := (env.toiPos v isl sub i).1, a0 := (env.toiPos v isl sub i).2 } }) →
    (v.typeOf b ≠ .static → (v.phys b).awake = true) →
    Done (v.setPhys b ((v1.phys b).write (integratePosition sub.dt
      ⟨(env.toiPos v isl sub i).1, (env.toiPos v isl sub i).2, (env.toiVel v1 isl sub states i).1, (env.toiVel v1 isl sub states i).2⟩)))
  release : ∀ {v v'}, Done v → WInv v → v.typeOf b = .dynamic → v.synchronizeFixtures b = some v' → Full v'
  stay : ∀ {v}, Done v → v.typeOf b ≠ .dynamic → Full v

/-- The times of the bodies and contacts of the world are not negative. -/
structure Timely (w : World F) : Prop where
  alpha : ∀ y ∈ w.g.bodyList, 0 ≤ (w.phys y).sweep.alpha0
  toi : ∀ c ∈ w.g.contactList, (w.cst c).toiFlag = true → 0 ≤ (w.cst c).toi

namespace Timely
variable {w w' : World F}
theorem calm (h : Timely w) (hg : w'.g = w.g) (hc : Calm0 w w') : Timely w' :=
  ⟨fun y hy => by rw [hc.alpha0]; exact h.alpha y (by rw [← hg]; exact hy),
    fun c hc' hf => by rw [hc.toi]; exact h.toi c (by rw [← hg]; exact hc') (by rw [← hc.toiFlag]; exact hf)⟩
theorem setPhys {y : Nat} {p : Phys F} (h : Timely w) (hp : 0 ≤ p.sweep.alpha0) : Timely (w.setPhys y p) := by
  refine ⟨fun x hx => ?_, h.toi⟩
  show 0 ≤ (upd w.phys y p x).sweep.alpha0
  by_cases hxy : x = y
  · subst hxy; rw [upd_same]; exact hp
  · rw [upd_other _ _ hxy]; exact h.alpha x hx
theorem setPhys' {y : Nat} {p : Phys F} (h : Timely w) (hp : p.sweep.alpha0 = (w.phys y).sweep.alpha0) : Timely (w.setPhys y p) := by
  refine ⟨fun x hx => ?_, h.toi⟩
  show 0 ≤ (upd w.phys y p x).sweep.alpha0
  rw [proj_upd (fun q : Phys F => q.sweep.alpha0) hp]; exact h.alpha x hx
theorem setCst {c : Nat} {s : CState F} (h : Timely w) (hs : s.toiFlag = true → s.toi = (w.cst c).toi ∧ (w.cst c).toiFlag = true ∨ 0 ≤ s.toi) : Timely (w.setCst c s) := by
  refine ⟨h.alpha, fun x hx hf => ?_⟩
  replace hf : (upd w.cst c s x).toiFlag = true := hf
  show 0 ≤ (upd w.cst c s x).toi
  by_cases hxy : x = c
  · subst hxy
    rw [upd_same] at hf ⊢
    rcases hs hf with ⟨h1, h2⟩ | h1
    · rw [h1]; exact h.toi x hx h2
    · exact h1
  · rw [upd_other _ _ hxy] at hf ⊢; exact h.toi x hx hf
end Timely

theorem sweep_advance_alpha {s s' : Sweep F} {a : F} (e : s.advance a = some s') : s'.alpha0 = a := by
  unfold Sweep.advance at e
  dsimp only at e
  split at e
  · cases e; rfl
  · cases e

theorem advance_eq {w w' : World F} {y : Nat} {a : F} (e : w.advance y a = some w') :
    ∃ p, (w.phys y).advance a = some p ∧ w' = w.setPhys y p ∧ p.sweep.alpha0 = a := by
  unfold World.advance at e
  simp only [Option.bind_eq_bind, Option.bind_eq_some_iff] at e
  obtain ⟨p, h1, h2⟩ := e
  cases h2
  refine ⟨p, h1, rfl, ?_⟩
  unfold Phys.advance at h1
  simp only [Option.bind_eq_bind, Option.bind_eq_some_iff] at h1
  obtain ⟨s, hs, h1⟩ := h1
  cases h1
  exact (sweep_advance_alpha hs : s.alpha0 = a)

theorem advance_spares {w w' : World F} {b y : Nat} {a : F} (hy : y ≠ b) (e : w.advance y a = some w') : Spares b w w' := by
  obtain ⟨p, -, rfl, -⟩ := advance_eq e
  exact .setPhys (fun h => absurd h hy)

variable {env : Env F} {dt : F} {b : Nat} {Full : World F → Prop} {Half : F → World F → Prop} {Done : World F → Prop}

/-- The island around a time of impact while it is being built. -/
structure TB (b : Nat) (Full : World F → Prop) (Half : F → World F → Prop) (a : F) (w0 : World F) (x : World F × Island) : Prop where
  frame : WFrame w0 x.1
  times : Timely x.1
  mem : ∀ y ∈ x.2.bodies, y ∈ w0.g.bodyList
  flag : ∀ y ∈ w0.g.bodyList, (x.1.phys y).island = true → y ∈ x.2.bodies
  index : ∀ (i y : Nat), x.2.bodies[i]? = some y → (x.1.phys y).island = true ∧ (x.1.phys y).islandIndex = i
  full : (x.1.phys b).island = false → Full x.1
  half : (x.1.phys b).island = true → Half a x.1
  met : ∀ y ∈ x.2.bodies, Act w0.g y

namespace TB
variable {a : F} {w0 : World F} {x : World F × Island}

theorem index_same {w : World F} (h : TB b Full Half a w0 x) (hp : ∀ y, (w.phys y).island = (x.1.phys y).island ∧ (w.phys y).islandIndex = (x.1.phys y).islandIndex) :
    ∀ (i y : Nat), x.2.bodies[i]? = some y → (w.phys y).island = true ∧ (w.phys y).islandIndex = i := by
  intro i y hi
  obtain ⟨p, q⟩ := h.index i y hi
  exact ⟨(hp y).1.trans p, (hp y).2.trans q⟩

theorem spare (H : Follows0 b Full Half) (h : TB b Full Half a w0 x) {w : World F} (hf : WFrame x.1 w) (ht : Timely w) (hs : Spares b x.1 w)
    (hp : ∀ y, (w.phys y).island = (x.1.phys y).island ∧ (w.phys y).islandIndex = (x.1.phys y).islandIndex) {isl : Island}
    (hb : isl.bodies = x.2.bodies) : TB b Full Half a w0 (w, isl) :=
  ⟨h.frame.trans hf, ht, by rw [hb]; exact h.mem, fun y hy hi => by rw [hb]; exact h.flag y hy (by rw [← (hp y).1]; exact hi), by rw [hb]; exact h.index_same hp,
    fun hi => H.full hs (h.full (by rw [← (hp b).1]; exact hi)), fun hi => H.half hs (h.half (by rw [← (hp b).1]; exact hi)), by rw [hb]; exact h.met⟩

/-- The island flags and places are the same. -/
def SameFlags (w w' : World F) : Prop := ∀ y, (w'.phys y).island = (w.phys y).island ∧ (w'.phys y).islandIndex = (w.phys y).islandIndex

theorem _root_.B2.Calm0.sameFlags {w w' : World F} (h : Calm0 w w') : SameFlags w w' := fun y => ⟨h.island y, h.islandIndex y⟩
theorem sameFlags_setPhys {w : World F} {y : Nat} {p : Phys F} (h1 : p.island = (w.phys y).island) (h2 : p.islandIndex = (w.phys y).islandIndex) :
    SameFlags w (w.setPhys y p) :=
  fun z => ⟨proj_upd (fun q : Phys F => q.island) h1 z, proj_upd (fun q : Phys F => q.islandIndex) h2 z⟩

end TB
open TB

theorem visit_add {a : F} {w0 : World F} (H : Follows0 b Full Half) {w : World F} {isl : Island} {o : Nat}
    (hf : WFrame w0 w) (ht : Timely w) (hmem : ∀ y ∈ isl.bodies, y ∈ w0.g.bodyList) (hflag : ∀ y ∈ w0.g.bodyList, (w.phys y).island = true → y ∈ isl.bodies)
    (hidx : ∀ (i y : Nat), isl.bodies[i]? = some y → (w.phys y).island = true ∧ (w.phys y).islandIndex = i)
    (ho : o ∈ w0.g.bodyList) (hof : (w.phys o).island = false)
    (hfull : o ≠ b → (w.phys b).island = false → Full w) (hhalf : o = b ∨ (w.phys b).island = true → Half a w)
    (hmet : ∀ y ∈ isl.bodies, Act w0.g y) (hmo : Act w0.g o) :
    TB b Full Half a w0 (toiAddBody (w, isl) o) := by
  have hsp : Spares b w (toiAddBody (w, isl) o).1 := .setPhys (by rintro rfl; exact ⟨rfl, id⟩)
  have hflg : ∀ y, y ≠ o → ((toiAddBody (w, isl) o).1.phys y) = w.phys y := fun y hy => by
    show upd w.phys o _ y = _
    rw [upd_other _ _ hy]
  have hfo : ((toiAddBody (w, isl) o).1.phys o).island = true := by
    show (upd w.phys o _ o).island = true
    rw [upd_same]
  refine ⟨hf.trans (toiAddBody_mild (w, isl) o).toWFrame, ht.setPhys' rfl, fun y hy => ?_, fun y hy hi => ?_, fun i y hi => ?_, fun hi => ?_, fun hi => ?_, fun y hy => ?_⟩
  · replace hy : y ∈ isl.bodies ++ [o] := hy
    rcases List.mem_append.mp hy with hy | hy
    · exact hmem y hy
    · rw [List.mem_singleton.mp hy]; exact ho
  · show y ∈ isl.bodies ++ [o]
    by_cases hyo : y = o
    · simp [hyo]
    · rw [hflg y hyo] at hi
      exact List.mem_append_left _ (hflag y hy hi)
  · replace hi : (isl.bodies ++ [o])[i]? = some y := hi
    rw [List.getElem?_append] at hi
    by_cases hyo : y = o
    · subst hyo
      split at hi
      · rw [(hidx i y hi).1] at hof; cases hof
      · refine ⟨hfo, ?_⟩
        have : i - isl.bodies.length = 0 := by
          by_contra hne
          rw [List.getElem?_eq_none (by simp; omega)] at hi
          cases hi
        show Phys.islandIndex (upd w.phys y _ y) = i
        rw [upd_same]
        show (isl.bodies.length : Int) = i
        omega
    · rw [hflg y hyo]
      split at hi
      · exact hidx i y hi
      · have := List.mem_of_getElem? hi
        rw [List.mem_singleton] at this
        exact absurd this hyo
  · have hob : o ≠ b := by rintro rfl; rw [hfo] at hi; cases hi
    rw [hflg b (Ne.symm hob)] at hi
    exact H.full hsp (hfull hob hi)
  · by_cases hob : o = b
    · exact H.half hsp (hhalf (Or.inl hob))
    · rw [hflg b (Ne.symm hob)] at hi
      exact H.half hsp (hhalf (Or.inr hi))
  · replace hy : y ∈ isl.bodies ++ [o] := hy
    rcases List.mem_append.mp hy with hy | hy
    · exact hmet y hy
    · rw [List.mem_singleton.mp hy]; exact hmo

theorem ginv_enabled {g : Graph F} (hi : GInv g) {c x y : Nat} (hc : c ∈ g.contactList) (hj : g.joins c x y) : (g.bodies x).enabled = true := by
  obtain ⟨bA, bB, hA, hB, -, ⟨_, -, lA, hA2, -⟩, ⟨_, -, lB, hB2, -⟩, -⟩ := hi.ok c hc
  rw [hA] at hA2; cases hA2
  rw [hB] at hB2; cases hB2
  rcases hj with ⟨h, -⟩ | ⟨h, -⟩
  · rw [hA] at h; cases h; exact lA
  · rw [hB] at h; cases h; exact lB

theorem edge_met {g : Graph F} (hi : GInv g) {body : Nat} {ed : Nat × Nat} (h : ed ∈ (g.bodies body).contacts) : Act g ed.2 := by
  obtain ⟨hc, hj⟩ := (hi.link.edges body ed.1 ed.2).mp h
  have : (ed.1, body) ∈ (g.bodies ed.2).contacts := (hi.link.edges ed.2 ed.1 body).mpr ⟨hc, by unfold Graph.joins at *; tauto⟩
  exact ⟨List.ne_nil_of_mem this, ginv_enabled hi hc (by unfold Graph.joins at *; tauto : g.joins ed.1 ed.2 body)⟩

theorem toiVisit_track (H : Follows0 b Full Half) (hE : LeavesBodies env) {a : F} (h0 : 0 ≤ a) (h1 : a < 1) {w0 : World F} (hi : GInv w0.g) {body : Nat} {x x' : World F × Island}
    {ed : Nat × Nat} (h : TB b Full Half a w0 x) (hed : ed ∈ (w0.g.bodies body).contacts) (e : toiVisit env a body x ed = some x') : TB b Full Half a w0 x' := by
  obtain ⟨-, -, hl⟩ := edge_other hi hed
  have hmet := edge_met hi hed
  unfold toiVisit at e
  dsimp only at e
  split at e
  · cases e; exact h
  split at e
  · cases e
  split at e
  · cases e; exact h
  split at e
  · cases e; exact h
  simp only [Option.bind_eq_bind, Option.bind_eq_some_iff] at e
  obtain ⟨w1, e1, w2, e2, e⟩ := e
  obtain ⟨f2, c2, -, -⟩ := contactUpdate_spec e2
  have s2 : Spares b w1 w2 := contactUpdate_spares hE e2
  have hal : 0 ≤ (x.1.phys ed.2).sweep.alpha0 := h.times.alpha _ (by rw [h.frame.g]; exact hl)
  cases hfl : (x.1.phys ed.2).island with
  | false =>
    rw [if_pos hfl] at e1
    have e1' := e1
    obtain ⟨p, hp, rfl, hpa⟩ := advance_eq e1
    have fl1 : SameFlags x.1 (x.1.setPhys ed.2 p) := (advance_calm0 e1').2.2
    have f1 : WFrame x.1 (x.1.setPhys ed.2 p) := (advance_mild e1').toWFrame
    have t2 : Timely w2 := (h.times.setPhys (y := ed.2) (p := p) (by rw [hpa]; exact h0)).calm f2.g c2
    have fl2 : SameFlags x.1 w2 := fun y => ⟨(c2.island y).trans (fl1 y).1, (c2.islandIndex y).trans (fl1 y).2⟩
    have fr2 : WFrame w0 w2 := (h.frame.trans f1).trans f2
    split at e
    · cases e
      have fl3 : SameFlags x.1 (w2.restore ed.2 (x.1.phys ed.2).sweep) := fun y =>
        ⟨(sameFlags_setPhys (w := w2) (y := ed.2) (by rfl) (by rfl) y).1.trans (fl2 y).1, (sameFlags_setPhys (w := w2) (y := ed.2) (by rfl) (by rfl) y).2.trans (fl2 y).2⟩
      have t3 : Timely (w2.restore ed.2 (x.1.phys ed.2).sweep) := t2.setPhys hal
      have fr3 : WFrame x.1 (w2.restore ed.2 (x.1.phys ed.2).sweep) := (f1.trans f2).trans (restore_mild _ _ _).toWFrame
      by_cases hob : ed.2 = b
      · refine ⟨h.frame.trans fr3, t3, h.mem, fun y hy hi => h.flag y hy (by rw [← (fl3 y).1]; exact hi), h.index_same fl3, fun _ => ?_, fun hi => ?_, h.met⟩
        · subst hob
          exact H.restore (h.full hfl) (by rw [h.frame.g]; exact hmet) e1' s2
        · rw [(fl3 b).1, ← hob, hfl] at hi; cases hi
      · exact h.spare H fr3 t3 ((advance_spares hob e1').trans (s2.trans (.setPhys (fun hc => absurd hc hob)))) fl3 rfl
    · have t3 : Timely (w2.setCst ed.1 { w2.cst ed.1 with island := true }) := t2.setCst (fun hh => Or.inl ⟨rfl, hh⟩)
      have hof : (w2.phys ed.2).island = false := (fl2 ed.2).1.trans hfl
      rw [if_neg (by show ¬ (w2.phys ed.2).island = true; rw [hof]; exact Bool.false_ne_true)] at e
      cases e
      have key : ∀ w3 : World F, Quiet (w2.setCst ed.1 { w2.cst ed.1 with island := true }) w3 → Spares b w2 w3 →
          TB b Full Half a w0 (toiAddBody (w3, { x.2 with contacts := x.2.contacts ++ [ed.1] }) ed.2) := by
        intro w3 q3 s3
        have fl3 : SameFlags x.1 w3 := fun y => ⟨(q3.toCalm0.island y).trans (fl2 y).1, (q3.toCalm0.islandIndex y).trans (fl2 y).2⟩
        refine visit_add H ((fr2.trans (setCst_soft (s := { w2.cst ed.1 with island := true }) (c := ed.1) (by rfl) (by rfl)).toWFrame).trans q3.toWFrame) (t3.calm q3.g q3.toCalm0)
          h.mem (fun y hy hi => h.flag y hy (by rw [← (fl3 y).1]; exact hi)) (h.index_same fl3) hl ((fl3 _).1.trans hfl) (fun hob hfb => ?_) (fun hb => ?_) h.met hmet
        · exact H.full ((advance_spares hob e1').trans (s2.trans s3)) (h.full (by rw [← (fl3 b).1]; exact hfb))
        · by_cases hob : ed.2 = b
          · have hfb : (x.1.phys b).island = false := by rw [← hob]; exact hfl
            refine H.half (s2.trans s3) (H.advance (h.full hfb) (by rw [h.frame.g, ← hob]; exact hmet) h0 h1 (by rw [← hob]; exact e1'))
          · rcases hb with hb | hb
            · exact absurd hb hob
            · exact H.half ((advance_spares hob e1').trans (s2.trans s3)) (h.half (by rw [← (fl3 b).1]; exact hb))
      split
      · exact key _ (setAwake_quiet _ _ _) ((Spares.unmoved (w := w2) (w' := w2.setCst ed.1 { w2.cst ed.1 with island := true }) rfl rfl rfl).trans (.awaken ed.2))
      · exact key _ (.refl _) (.unmoved rfl rfl rfl)
  | true =>
    rw [if_neg (by rw [hfl]; simp)] at e1
    cases e1
    have fl2 : SameFlags x.1 w2 := c2.sameFlags
    have t2 : Timely w2 := h.times.calm f2.g c2
    split at e
    · cases e
      have fl3 : SameFlags x.1 (w2.restore ed.2 (x.1.phys ed.2).sweep) := fun y =>
        ⟨(sameFlags_setPhys (w := w2) (y := ed.2) (by rfl) (by rfl) y).1.trans (fl2 y).1, (sameFlags_setPhys (w := w2) (y := ed.2) (by rfl) (by rfl) y).2.trans (fl2 y).2⟩
      have t3 : Timely (w2.restore ed.2 (x.1.phys ed.2).sweep) := t2.setPhys hal
      have fr3 : WFrame x.1 (w2.restore ed.2 (x.1.phys ed.2).sweep) := f2.trans (restore_mild _ _ _).toWFrame
      by_cases hob : ed.2 = b
      · refine ⟨h.frame.trans fr3, t3, h.mem, fun y hy hi => h.flag y hy (by rw [← (fl3 y).1]; exact hi), h.index_same fl3, fun hi => ?_, fun _ => ?_, h.met⟩
        · rw [(fl3 b).1, ← hob, hfl] at hi; cases hi
        · subst hob
          have hsw : (x.1.phys ed.2).sweep = (w2.phys ed.2).sweep := (congrArg Phys.sweep s2.core).symm
          rw [hsw]
          exact H.resync (H.half s2 (h.half hfl))
      · exact h.spare H fr3 t3 (s2.trans (.setPhys (fun hc => absurd hc hob))) fl3 rfl
    · have hof : (w2.phys ed.2).island = true := (fl2 ed.2).1.trans hfl
      rw [if_pos (by exact hof)] at e
      cases e
      exact TB.spare (w := w2.setCst ed.1 { w2.cst ed.1 with island := true }) (isl := { x.2 with contacts := x.2.contacts ++ [ed.1] }) H h
        (f2.trans (setCst_soft (by rfl) (by rfl)).toWFrame) (t2.setCst (fun hh => Or.inl ⟨rfl, hh⟩)) (s2.trans (.unmoved rfl rfl rfl)) fl2 rfl

theorem toiVisits_track (H : Follows0 b Full Half) (hE : LeavesBodies env) {a : F} (h0 : 0 ≤ a) (h1 : a < 1) {w0 : World F} (hi : GInv w0.g) {body : Nat}
    {x x' : World F × Island} (h : TB b Full Half a w0 x) (e : toiVisits env a x body = some x') : TB b Full Half a w0 x' := by
  unfold toiVisits at e
  split at e
  · exact foldlM_inv (fun y => TB b Full Half a w0 y) e h (fun ed hed y y' hy hv => toiVisit_track H hE h0 h1 hi hy (by rw [← h.frame.g]; exact hed) hv)
  · cases e; exact h

/-- The island around a time of impact: the two bodies have been brought to the time. -/
theorem toiIsland_track (H : Follows0 b Full Half) (hE : LeavesBodies env) {a : F} (h0 : 0 ≤ a) (h1 : a < 1) {w : World F} (hi : GInv w.g) (ht : Timely w) (hcl : Clean w)
    {c bA bB : Nat} (hA : bA ∈ w.g.bodyList) (hB : bB ∈ w.g.bodyList) (hne : bA ≠ bB) (hmA : Act w.g bA) (hmB : Act w.g bB)
    (hfull : b ≠ bA → b ≠ bB → Full w) (hhalf : b = bA ∨ b = bB → Half a w) (hb : b ∈ w.g.bodyList) {x : World F × Island}
    (e : w.toiIsland env c bA bB a = some x) : TB b Full Half a w x := by
  unfold toiIsland at e
  simp only [Option.bind_eq_bind, Option.bind_eq_some_iff] at e
  obtain ⟨x1, e1, e2⟩ := e
  refine toiVisits_track H hE h0 h1 hi (toiVisits_track H hE h0 h1 hi ?_ e1) e2
  have q0 : Quiet w ((w.setAwake bA true).setAwake bB true) := (setAwake_quiet _ _ _).trans (setAwake_quiet _ _ _)
  have s0 : Spares b w ((w.setAwake bA true).setAwake bB true) := (Spares.awaken bA).trans (.awaken bB)
  generalize (w.setAwake bA true).setAwake bB true = w1 at q0 s0
  have cl1 : ∀ y ∈ w.g.bodyList, (w1.phys y).island = false := fun y hy => (q0.toCalm0.island y).trans (hcl y hy)
  -- both bodies added
  have hph : ∀ y, (toiAddBody (toiAddBody (w1, (⟨[], [c], []⟩ : Island)) bA) bB).1.phys y =
      if y = bB then { w1.phys bB with islandIndex := 1, island := true } else if y = bA then { w1.phys bA with islandIndex := 0, island := true } else w1.phys y := by
    intro y
    show upd (upd w1.phys bA _) bB _ y = _
    by_cases hyB : y = bB
    · subst hyB
      rw [upd_same, if_pos rfl]
      show ({ (upd w1.phys bA _ y) with islandIndex := _, island := true } : Phys F) = _
      rw [upd_other _ _ (Ne.symm hne)]
      rfl
    · rw [upd_other _ _ hyB, if_neg hyB]
      by_cases hyA : y = bA
      · subst hyA; rw [upd_same, if_pos rfl]; rfl
      · rw [upd_other _ _ hyA, if_neg hyA]
  have hbd : (toiAddBody (toiAddBody (w1, (⟨[], [c], []⟩ : Island)) bA) bB).2.bodies = [bA, bB] := rfl
  have fr : WFrame w (toiAddBody (toiAddBody (w1, (⟨[], [c], []⟩ : Island)) bA) bB).1 :=
    (q0.toWFrame.trans (toiAddBody_mild (w1, (⟨[], [c], []⟩ : Island)) bA).toWFrame).trans (toiAddBody_mild _ bB).toWFrame
  have sp : Spares b w (toiAddBody (toiAddBody (w1, (⟨[], [c], []⟩ : Island)) bA) bB).1 := by
    refine .frame fr ?_
    rw [hph]
    split
    · rename_i h; subst h; exact ⟨s0.core, s0.awake⟩
    · split
      · rename_i h; subst h; exact ⟨s0.core, s0.awake⟩
      · exact ⟨s0.core, s0.awake⟩
  have tm : Timely (toiAddBody (toiAddBody (w1, (⟨[], [c], []⟩ : Island)) bA) bB).1 :=
    Timely.setPhys' (w := (toiAddBody (w1, (⟨[], [c], []⟩ : Island)) bA).1) (Timely.setPhys' (ht.calm q0.g q0.toCalm0) (by rfl)) (by rfl)
  generalize toiAddBody (toiAddBody (w1, (⟨[], [c], []⟩ : Island)) bA) bB = z at hph hbd fr sp tm
  have flA : (z.1.phys bA).island = true := by rw [hph, if_neg hne, if_pos rfl]
  have flB : (z.1.phys bB).island = true := by rw [hph, if_pos rfl]
  have flN : ∀ y ∈ w.g.bodyList, y ≠ bA → y ≠ bB → (z.1.phys y).island = false := fun y hy h1 h2 => by rw [hph, if_neg h2, if_neg h1]; exact cl1 y hy
  have base : TB b Full Half a w z := by
    refine ⟨fr, tm, ?_, fun y hy hi => ?_, fun i y hi => ?_, fun hi => ?_, fun hi => ?_, fun y hy => ?_⟩
    · rw [hbd]
      intro y hy
      simp only [List.mem_cons, List.not_mem_nil, or_false] at hy
      rcases hy with rfl | rfl
      · exact hA
      · exact hB
    · rw [hbd]
      by_contra hn
      simp only [List.mem_cons, List.not_mem_nil, or_false, not_or] at hn
      rw [flN y hy hn.1 hn.2] at hi
      cases hi
    · rw [hbd] at hi
      match i, hi with
      | 0, hi =>
        have : bA = y := by simpa using hi
        subst this
        exact ⟨flA, by rw [hph, if_neg hne, if_pos rfl]; rfl⟩
      | 1, hi =>
        have : bB = y := by simpa using hi
        subst this
        exact ⟨flB, by rw [hph, if_pos rfl]; rfl⟩
      | n + 2, hi => simp at hi
    · refine H.full sp (hfull ?_ ?_)
      · rintro rfl; rw [flA] at hi; cases hi
      · rintro rfl; rw [flB] at hi; cases hi
    · refine H.half sp (hhalf ?_)
      by_contra hn
      rw [not_or] at hn
      rw [flN b hb hn.1 hn.2] at hi
      cases hi
    · rw [hbd] at hy
      simp only [List.mem_cons, List.not_mem_nil, or_false] at hy
      rcases hy with rfl | rfl
      · exact hmA
      · exact hmB
  exact TB.spare (w := z.1.setCst c { z.1.cst c with island := true }) (isl := z.2) H base (setCst_soft (by rfl) (by rfl)).toWFrame
    (base.times.setCst (fun hh => Or.inl ⟨rfl, hh⟩)) (.unmoved rfl rfl rfl) (fun _ => ⟨rfl, rfl⟩) rfl

/-! ### The sub-step -/

theorem writeBack_phys : ∀ (bodies : List Nat) (states : List (BState F)) (w : World F), bodies.Nodup → bodies.length = states.length →
    (b ∉ bodies → (w.writeBack bodies states).phys b = w.phys b) ∧
    ∀ (i : Nat) s, bodies[i]? = some b → states[i]? = some s → (w.writeBack bodies states).phys b = (w.phys b).write s := by
  intro bodies
  induction bodies with
  | nil => intro states w _ _; exact ⟨fun _ => rfl, fun i s h => by simp at h⟩
  | cons y l ih =>
    intro states w hnd hlen
    match states, hlen with
    | t :: st, hlen =>
      obtain ⟨hy, hnd'⟩ := List.nodup_cons.mp hnd
      have hstep : w.writeBack (y :: l) (t :: st) = (w.setPhys y ((w.phys y).write t)).writeBack l st := rfl
      obtain ⟨k1, k2⟩ := ih st (w.setPhys y ((w.phys y).write t)) hnd' (by simpa using hlen)
      rw [hstep]
      refine ⟨fun hb => ?_, fun i s hi hs => ?_⟩
      · rw [k1 (fun h => hb (List.mem_cons_of_mem _ h))]
        show upd w.phys y _ b = _
        rw [upd_other _ _ (fun h : b = y => hb (by rw [h]; exact List.mem_cons_self))]
      · cases i with
        | zero =>
          simp only [List.getElem?_cons_zero, Option.some.injEq] at hi hs
          subst hi; subst hs
          rw [k1 hy]
          show upd w.phys y _ y = _
          rw [upd_same]
        | succ n =>
          simp only [List.getElem?_cons_succ] at hi hs
          rw [k2 n s hi hs]
          have hby : b ≠ y := by rintro rfl; exact hy (List.mem_of_getElem? hi)
          show Phys.write (upd w.phys y _ b) s = _
          rw [upd_other _ _ hby]

theorem islandSolveToi_track (hE : LeavesBodies env) {v v' : World F} {cap : Nat} {isl : Island} {sub : TimeStep F} {iA iB : Int}
    (hx : Fitted v isl) (hnd : isl.bodies.Nodup) (e : v.islandSolveToi env cap isl sub iA iB = some v') :
    (b ∉ isl.bodies → Spares b v v') ∧ ∀ (i : Nat), isl.bodies[i]? = some b → ∃ v1 states, Fitted v1 isl ∧
      states[i]? = some ⟨(env.toiPos v isl sub i).1, (env.toiPos v isl sub i).2, (v.phys b).v, (v.phys b).w⟩ ∧
      (v1.phys b = v.phys b ∨ v1.phys b = { v.phys b with sweep := { (v.phys b).sweep with c0 := (env.toiPos v isl sub i).1, a0 := (env.toiPos v isl sub i).2 } }) ∧
      Spares b (v.setPhys b ((v1.phys b).write (integratePosition sub.dt
        ⟨(env.toiPos v isl sub i).1, (env.toiPos v isl sub i).2, (env.toiVel v1 isl sub states i).1, (env.toiVel v1 isl sub states i).2⟩))) v' := by
  unfold islandSolveToi at e
  split at e
  · cases e
  simp only [Option.bind_eq_bind, Option.bind_eq_some_iff] at e
  obtain ⟨bA, hA, bB, hB, e⟩ := e
  have hrep := report_spares hE (b := b) e
  set states : List (BState F) := setPositions (isl.bodies.map fun b => (⟨(v.phys b).sweep.c, (v.phys b).sweep.a, (v.phys b).v, (v.phys b).w⟩ : BState F)) (env.toiPos v isl sub) with hst
  set v1 : World F := (v.leap bA (env.toiPos v isl sub iA.toNat)).leap bB (env.toiPos v isl sub iB.toNat) with hv1
  set fin : List (BState F) := (setVelocities states (env.toiVel v1 isl sub states)).map (integratePosition sub.dt) with hfin
  have hlen : isl.bodies.length = fin.length := by rw [hfin, hst]; simp [setVelocities, setPositions]
  obtain ⟨k1, k2⟩ := writeBack_phys (b := b) isl.bodies fin v1 hnd hlen
  have hx1 : Fitted v1 isl := by
    refine ⟨fun i y hi => ?_, hx.contacts, hx.joints⟩
    have : (v1.phys y).islandIndex = (v.phys y).islandIndex :=
      (proj_upd (fun q : Phys F => q.islandIndex) (by rfl) y).trans (proj_upd (fun q : Phys F => q.islandIndex) (by rfl) y)
    rw [this]
    exact hx.index i y hi
  have hfr : ∀ (l : List (Nat × BState F)) (u : World F), (l.foldl (fun w x => w.setPhys x.1 (Phys.synchronizeTransform { w.phys x.1 with
      sweep := { (w.phys x.1).sweep with c := x.2.c, a := x.2.a }, v := x.2.v, w := x.2.w })) u).g = u.g ∧
      (l.foldl (fun w x => w.setPhys x.1 (Phys.synchronizeTransform { w.phys x.1 with
      sweep := { (w.phys x.1).sweep with c := x.2.c, a := x.2.a }, v := x.2.v, w := x.2.w })) u).bp = u.bp := by
    intro l
    induction l with
    | nil => intro u; exact ⟨rfl, rfl⟩
    | cons x l ih => intro u; rw [List.foldl_cons]; exact ih _
  have hwb : (v1.writeBack isl.bodies fin).g = v.g ∧ (v1.writeBack isl.bodies fin).bp = v.bp := hfr _ v1
  have hidx : ∀ (i : Nat), isl.bodies[i]? = some b → v1.phys b = v.phys b ∨
      v1.phys b = { v.phys b with sweep := { (v.phys b).sweep with c0 := (env.toiPos v isl sub i).1, a0 := (env.toiPos v isl sub i).2 } } := by
    intro i hi
    have eqi : ∀ {j : Nat} {y : Nat}, isl.bodies[j]? = some y → y = b → j = i := by
      rintro j y hj rfl
      have a1 := hx.index i y hi
      have a2 := hx.index j y hj
      rw [a1] at a2
      omega
    have h1 : v1.phys b = (if b = bB then { (v.leap bA (env.toiPos v isl sub iA.toNat)).phys bB with
        sweep := { ((v.leap bA (env.toiPos v isl sub iA.toNat)).phys bB).sweep with c0 := (env.toiPos v isl sub iB.toNat).1, a0 := (env.toiPos v isl sub iB.toNat).2 } }
        else (v.leap bA (env.toiPos v isl sub iA.toNat)).phys b) := by
      rw [hv1]
      show upd _ bB _ b = _
      by_cases h : b = bB
      · rw [if_pos h, h, upd_same]
      · rw [if_neg h, upd_other _ _ h]
    have h2 : (v.leap bA (env.toiPos v isl sub iA.toNat)).phys b = (if b = bA then { v.phys bA with
        sweep := { (v.phys bA).sweep with c0 := (env.toiPos v isl sub iA.toNat).1, a0 := (env.toiPos v isl sub iA.toNat).2 } } else v.phys b) := by
      show upd _ bA _ b = _
      by_cases h : b = bA
      · rw [if_pos h, h, upd_same]
      · rw [if_neg h, upd_other _ _ h]
    by_cases hbB : b = bB
    · subst hbB
      have hi2 := eqi hB rfl
      rw [h1, if_pos rfl, h2, hi2]
      right
      split
      · rename_i h; subst h; rfl
      · rfl
    · rw [h1, if_neg hbB, h2]
      by_cases hbA : b = bA
      · subst hbA
        have hi2 := eqi hA rfl
        rw [if_pos rfl, hi2]
        exact Or.inr rfl
      · rw [if_neg hbA]
        exact Or.inl rfl
  refine ⟨fun hb => ?_, fun i hi => ⟨v1, states, hx1, ?_, hidx i hi, ?_⟩⟩
  · refine Spares.trans (.unmoved hwb.1 hwb.2 ?_) hrep
    rw [k1 hb]
    have hbA : b ≠ bA := by rintro rfl; exact hb (List.mem_of_getElem? hA)
    have hbB : b ≠ bB := by rintro rfl; exact hb (List.mem_of_getElem? hB)
    rw [hv1]
    show upd (upd v.phys bA _) bB _ b = _
    rw [upd_other _ _ hbB, upd_other _ _ hbA]
  · rw [hst]
    simp [setPositions, hi]
  · refine Spares.trans (.unmoved hwb.1 hwb.2 ?_) hrep
    have : fin[i]? = some (integratePosition sub.dt
        ⟨(env.toiPos v isl sub i).1, (env.toiPos v isl sub i).2, (env.toiVel v1 isl sub states i).1, (env.toiVel v1 isl sub states i).2⟩) := by
      rw [hfin]
      simp [setVelocities, hst, setPositions, hi]
    rw [k2 i _ hi this]
    show _ = upd v.phys b _ b
    rw [upd_same]

/-! ### The end of a time of impact -/

theorem setCsts_same {α : Type} (l : List α) (f : World F → α → Nat) (g : World F → α → CState F) (w : World F) :
    (l.foldl (fun w x => w.setCst (f w x) (g w x)) w).g = w.g ∧ (l.foldl (fun w x => w.setCst (f w x) (g w x)) w).bp = w.bp ∧
    (l.foldl (fun w x => w.setCst (f w x) (g w x)) w).phys = w.phys := by
  induction l generalizing w with
  | nil => exact ⟨rfl, rfl, rfl⟩
  | cons x l ih => rw [List.foldl_cons]; exact ih _

theorem setCsts_timely {α : Type} (l : List α) (f : World F → α → Nat) (g : World F → α → CState F) (w : World F) (h : Timely w)
    (hg : ∀ w x, (g w x).toiFlag = false) : Timely (l.foldl (fun w x => w.setCst (f w x) (g w x)) w) := by
  induction l generalizing w with
  | nil => exact h
  | cons x l ih => rw [List.foldl_cons]; exact ih _ (h.setCst (fun hh => by rw [hg] at hh; cases hh))

/-- Releasing the bodies of an island. -/
structure TR (b : Nat) (Full Done : World F → Prop) (w0 : World F) (pre : List Nat) (w : World F) : Prop where
  g : w.g = w0.g
  winv : WInv w
  times : Timely w
  off : ∀ y ∈ pre, (w.phys y).island = false
  same : ∀ y, (w0.phys y).island = false → (w.phys y).island = false
  full : b ∈ pre → Full w
  done : b ∉ pre → Done w

theorem toiRelease_track (H : Follows env dt b Full Half Done) {D : World F → Prop} {w0 w w' : World F} {pre : List Nat} {y : Nat} (hy : y ∉ pre)
    (hD : ∀ {v v'}, Spares b v v' → D v → D v') (hyD : y = b → ∀ v, D v → Done v)
    (h : TR b Full D w0 pre w) (e : w.toiRelease y = some w') : TR b Full D w0 (pre ++ [y]) w' := by
  have sp1 : Spares b w (w.setPhys y { w.phys y with island := false }) := .setPhys (by rintro rfl; exact ⟨rfl, id⟩)
  have hw1 : WInv (w.setPhys y { w.phys y with island := false }) := h.winv.frame rfl rfl
  have ht1 : Timely (w.setPhys y { w.phys y with island := false }) := h.times.setPhys' rfl
  have hoff : ((w.setPhys y { w.phys y with island := false }).phys y).island = false := by
    show (upd w.phys y _ y).island = false
    rw [upd_same]
  have hsame : ∀ z, (w.phys z).island = false → ((w.setPhys y { w.phys y with island := false }).phys z).island = false := by
    intro z hz
    by_cases hzy : z = y
    · subst hzy; exact hoff
    · show (upd w.phys y _ z).island = false
      rw [upd_other _ _ hzy]; exact hz
  have hg1 : (w.setPhys y { w.phys y with island := false }).g = w0.g := h.g
  unfold toiRelease at e
  dsimp only at e
  generalize w.setPhys y { w.phys y with island := false } = w1 at *
  have fin : ∀ w2 : World F, w2.g = w1.g → w2.phys = w1.phys → WInv w2 → Timely w2 → (y ≠ b → Spares b w1 w2) → (y = b → Full w2) → TR b Full D w0 (pre ++ [y]) w2 := by
    intro w2 k1 k2 k3 k4 k5 k6
    refine ⟨k1.trans hg1, k3, k4, fun z hz => ?_, fun z hz => ?_, fun hb => ?_, fun hb => ?_⟩
    · rw [k2]
      rcases List.mem_append.mp hz with hz | hz
      · exact hsame z (h.off z hz)
      · rw [List.mem_singleton.mp hz]; exact hoff
    · rw [k2]; exact hsame z (h.same z hz)
    · by_cases hyb : y = b
      · exact k6 hyb
      · rcases List.mem_append.mp hb with hb | hb
        · exact H.full (sp1.trans (k5 hyb)) (h.full hb)
        · exact absurd (List.mem_singleton.mp hb).symm hyb
    · rw [List.mem_append, not_or, List.mem_singleton] at hb
      exact hD (sp1.trans (k5 (fun h => hb.2 h.symm))) (h.done hb.1)
  split at e
  · rename_i htd
    cases e
    refine fin _ rfl rfl hw1 ht1 (fun _ => .refl _) (fun hyb => ?_)
    subst hyb
    exact H.stay (H.done sp1 (hyD rfl _ (h.done hy))) htd
  · rename_i htd
    rw [not_not] at htd
    simp only [Option.bind_eq_bind, Option.bind_eq_some_iff] at e
    obtain ⟨w2, e2, e3⟩ := e
    cases e3
    obtain ⟨w2', k1, k2, k3⟩ := synchronizeFixtures_spec y hw1.pinv
    rw [e2] at k1
    cases k1
    obtain ⟨t1, -, -⟩ := synchronizeFixtures_track hw1 e2
    have hg2 : w2.g = w1.g := by rw [t1.frame]
    have hp2 : w2.phys = w1.phys := by rw [t1.frame]
    have hc2 : w2.cst = w1.cst := by rw [t1.frame]
    have hw2 : WInv w2 := hw1.bpFrame k2 k3
    have ht2 : Timely w2 := ⟨by rw [hg2, hp2]; exact ht1.alpha, by rw [hg2, hc2]; exact ht1.toi⟩
    have hs : w2.g = w1.g ∧ _ := ⟨hg2, setCsts_same (w2.g.bodies y).contacts (fun _ e => e.1) (fun w e => { w.cst e.1 with toiFlag := false, island := false }) w2⟩
    have ht3 := setCsts_timely (w2.g.bodies y).contacts (fun _ e => e.1) (fun w e => { w.cst e.1 with toiFlag := false, island := false }) w2 ht2 (fun _ _ => rfl)
    obtain ⟨-, s1, s2, s3⟩ := hs
    refine fin _ (s1.trans hg2) (s3.trans hp2) (hw2.frame s1 s2) ht3 (fun hyb => ?_) (fun hyb => ?_)
    · exact (synchronizeFixtures_spares hw1 hyb e2).trans (.unmoved s1 s2 (by rw [s3]))
    · subst hyb
      refine H.full (.unmoved s1 s2 (by rw [s3])) (H.release (H.done sp1 (hyD rfl _ (h.done hy))) hw1 htd e2)

theorem findNewContacts_timely {w w' : World F} (h : WInv w) (ht : Timely w) (e : w.findNewContacts env = some w') : Timely w' := by
  have hph := findNewContacts_phys e
  obtain ⟨w1, x1, hw', -⟩ := findNewContacts_spec h e
  have hg : w'.g = w1.g := by rw [hw']
  have hc : w'.cst = w1.cst := by rw [hw']
  refine ⟨fun y hy => ?_, fun c hc' hf => ?_⟩
  · rw [hph]
    rw [hg, x1.eq] at hy
    exact ht.alpha y hy
  · rw [hc] at hf ⊢
    rw [hg] at hc'
    by_cases hlt : c < w.g.nextContact
    · obtain ⟨-, o2, o3⟩ := x1.old c hlt
      rw [o2] at hf ⊢
      exact ht.toi c (o3.mp hc') hf
    · rw [(x1.new c hc' (by omega)).2.2.2.1] at hf
      cases hf

/-- What holds between two times of impact. -/
structure TL (b : Nat) (Full : World F → Prop) (w : World F) : Prop where
  winv : WInv w
  clean : Clean w
  times : Timely w
  full : Full w
  mem : b ∈ w.g.bodyList

theorem TL.spare (H : Follows0 b Full Half) {w w' : World F} (h : TL b Full w) (hf : WFrame w w') (hi : ∀ y, (w'.phys y).island = (w.phys y).island) (ht : Timely w')
    (hs : Spares b w w') : TL b Full w' :=
  ⟨h.winv.frame hf.g hf.bp, fun y hy => by rw [hi]; exact h.clean y (by rw [← hf.g]; exact hy), ht, H.full hs h.full, by rw [hf.g]; exact h.mem⟩

theorem toiSolid_track (H : Follows env dt b Full Half Done) (hE : LeavesBodies env) {a : F} (h0 : 0 ≤ a) (h1 : a < 1) {step : TimeStep F} (hdt : step.dt = dt) {w w' : World F} (hi : WInv w) (ht : Timely w) (hcl : Clean w)
    {c bA bB : Nat} (hc : c ∈ w.g.contactList) (hj : w.g.joins c bA bB) (hA : bA ∈ w.g.bodyList) (hB : bB ∈ w.g.bodyList) (hne : bA ≠ bB) (hmA : Act w.g bA) (hmB : Act w.g bB)
    (hfull : b ≠ bA → b ≠ bB → Full w) (hhalf : b = bA ∨ b = bB → Half a w) (hb : b ∈ w.g.bodyList)
    (e : w.toiSolid env step c bA bB a = some w') : TL b Full w' := by
  unfold toiSolid at e
  simp only [Option.bind_eq_bind, Option.bind_eq_some_iff] at e
  obtain ⟨x, e1, w1, e2, w2, e3, e4⟩ := e
  have X := toiIsland_track H.toFollows0 hE h0 h1 hi.toGInv ht hcl hA hB hne hmA hmB hfull hhalf hb e1
  obtain ⟨hx, two⟩ := toiIsland_fitted hi.toGInv hc hj hcl hA hB hne e1
  have hnd : x.2.bodies.Nodup := by
    rw [List.nodup_iff_getElem?_ne_getElem?]
    intro i j hij hjl hij'
    obtain ⟨y, hy⟩ : ∃ y, x.2.bodies[j]? = some y := ⟨_, List.getElem?_eq_getElem hjl⟩
    have k1 := hx.index j y hy
    have k2 := hx.index i y (hij'.trans hy)
    rw [k1] at k2
    omega
  obtain ⟨t1, t2⟩ := islandSolveToi_track (b := b) hE hx hnd e2
  have c2 := islandSolveToi_calm0 e2
  have f2 : WFrame w w1 := X.frame.trans (islandSolveToi_mild e2).toWFrame
  have hw1 : WInv w1 := hi.frame f2.g f2.bp
  have ht1 : Timely w1 := X.times.calm (islandSolveToi_mild e2).toWFrame.g c2
  have hmem : b ∈ x.2.bodies ↔ (x.1.phys b).island = true := by
    refine ⟨fun hbm => ?_, X.flag b hb⟩
    obtain ⟨i, hi'⟩ := List.mem_iff_getElem?.mp hbm
    exact (X.index i b hi').1
  -- releasing, with `Done` meaning full outside the island
  have rel : w2.g = w1.g ∧ WInv w2 ∧ Timely w2 ∧ (∀ y ∈ x.2.bodies, (w2.phys y).island = false) ∧ (∀ y, (w1.phys y).island = false → (w2.phys y).island = false) ∧ Full w2 := by
    have go : ∀ D : World F → Prop, (∀ {v v'}, Spares b v v' → D v → D v') → (b ∈ x.2.bodies → ∀ v, D v → Done v) → D w1 → TR b Full D w1 x.2.bodies w2 := by
      intro D hD hDD hw
      refine foldlM_pre (fun pre v => TR b Full D w1 pre v) e3 ⟨rfl, hw1, ht1, by simp, fun _ h => h, by simp, fun _ => hw⟩ (fun pre y post hl v v' hv e' => ?_)
      refine toiRelease_track H ?_ hD (fun hyb => hDD (by rw [hl, hyb]; simp)) hv e'
      rw [hl] at hnd
      intro hy
      exact (List.nodup_append.mp hnd).2.2 y hy y (by simp) rfl
    by_cases hbm : b ∈ x.2.bodies
    · obtain ⟨i, hi'⟩ := List.mem_iff_getElem?.mp hbm
      obtain ⟨v1, states, q1, q2, q3, q4⟩ := t2 i hi'
      have R := go Done H.done (fun _ _ h => h) (H.done q4 (H.solve (X.half (hmem.mp hbm)) (by rw [X.frame.g]; exact X.met b hbm) h0 h1 (by rw [← hdt]) hi' hx q1 two q2 q3 (toiIsland_awake hE e1 b hbm)))
      exact ⟨R.g, R.winv, R.times, R.off, R.same, R.full hbm⟩
    · have R := go Full H.full (fun h => absurd h hbm) (H.full (t1 hbm) (X.full (by
        cases hf : (x.1.phys b).island with
        | false => rfl
        | true => exact absurd (hmem.mpr hf) hbm)))
      exact ⟨R.g, R.winv, R.times, R.off, R.same, R.done hbm⟩
  obtain ⟨g2, v2, tm2, o1, o2, fl2⟩ := rel
  have hph := findNewContacts_phys e4
  have g4 := (GoodT.find (env := env) v2 e4).toGood
  have hbl : w'.g.bodyList = w.g.bodyList := by rw [g4.bodyList, g2, f2.g]
  refine ⟨g4.winv, fun y hy => ?_, findNewContacts_timely v2 tm2 e4, H.full (findNewContacts_spares v2 e4) fl2, by rw [hbl]; exact hb⟩
  rw [hph]
  rw [hbl] at hy
  by_cases hf : (x.1.phys y).island = true
  · exact o1 y (X.flag y hy hf)
  · exact o2 y (by rw [c2.island]; simpa using hf)

theorem contact_met {w : World F} (h : WInv w) {c : Nat} (hc : c ∈ w.g.contactList) : ∃ bA bB, w.bodyOf (w.g.contacts c).fA = some bA ∧
    w.bodyOf (w.g.contacts c).fB = some bB ∧ bA ≠ bB ∧ bA ∈ w.g.bodyList ∧ bB ∈ w.g.bodyList ∧ Act w.g bA ∧ Act w.g bB := by
  obtain ⟨bA, bB, hA, hB, hne, ⟨_, lA, -, hA2, -⟩, ⟨_, lB, -, hB2, -⟩, -⟩ := h.ok c hc
  rw [hA] at hA2; cases hA2
  rw [hB] at hB2; cases hB2
  refine ⟨bA, bB, hA, hB, hne, lA, lB, ?_, ?_⟩
  · exact ⟨List.ne_nil_of_mem ((h.link.edges bA c bB).mpr ⟨hc, Or.inl ⟨hA, hB⟩⟩), ginv_enabled h.toGInv hc (Or.inl ⟨hA, hB⟩)⟩
  · exact ⟨List.ne_nil_of_mem ((h.link.edges bB c bA).mpr ⟨hc, Or.inr ⟨hB, hA⟩⟩), ginv_enabled h.toGInv hc (Or.inr ⟨hB, hA⟩)⟩

theorem toiEvent_track (H : Follows env dt b Full Half Done) (hE : LeavesBodies env) {a : F} (h0 : 0 ≤ a) (h1 : a < 1) {step : TimeStep F} (hdt : step.dt = dt)
    {w : World F} (h : TL b Full w) {c : Nat} (hc : c ∈ w.g.contactList) {x : World F × Bool} (e : w.toiEvent env step c a = some x) : TL b Full x.1 := by
  obtain ⟨bA, bB, hA, hB, hne, lA, lB, mA, mB⟩ := contact_met h.winv hc
  unfold toiEvent at e
  simp only [hA, hB, Option.bind_eq_bind, Option.bind_some, Option.bind_eq_some_iff] at e
  obtain ⟨w1, e1, w2, e2, w3, e3, e⟩ := e
  obtain ⟨f3, c3, -, -⟩ := contactUpdate_spec e3
  have s3 : Spares b w2 w3 := contactUpdate_spares hE e3
  have s4 : Spares b w2 (w3.setCst c { w3.cst c with toiFlag := false, toiCount := (w3.cst c).toiCount + 1 }) := s3.trans (.unmoved rfl rfl rfl)
  obtain ⟨p1, -, hw1, ha1⟩ := advance_eq e1
  obtain ⟨p2, -, hw2, ha2⟩ := advance_eq e2
  have t1 : Timely w1 := by rw [hw1]; exact h.times.setPhys (by rw [ha1]; exact h0)
  have t2 : Timely w2 := by rw [hw2]; exact t1.setPhys (by rw [ha2]; exact h0)
  have t4 : Timely (w3.setCst c { w3.cst c with toiFlag := false, toiCount := (w3.cst c).toiCount + 1 }) := (t2.calm f3.g c3).setCst (fun hh => by cases hh)
  have f2 : WFrame w w2 := (advance_mild e1).toWFrame.trans (advance_mild e2).toWFrame
  have f4 : WFrame w (w3.setCst c { w3.cst c with toiFlag := false, toiCount := (w3.cst c).toiCount + 1 }) := (f2.trans f3).trans (setCst_soft (by rfl) (by rfl)).toWFrame
  have i1 : ∀ y, (w1.phys y).island = (w.phys y).island := fun y => ((advance_calm0 e1).2.2 y).1
  have i2 : ∀ y, (w2.phys y).island = (w.phys y).island := fun y => ((advance_calm0 e2).2.2 y).1.trans (i1 y)
  have i4 : ∀ y, ((w3.setCst c { w3.cst c with toiFlag := false, toiCount := (w3.cst c).toiCount + 1 }).phys y).island = (w.phys y).island :=
    fun y => (c3.island y).trans (i2 y)
  have sB : b ≠ bA → Spares b w w1 := fun hn => advance_spares (Ne.symm hn) e1
  have sA : b ≠ bB → Spares b w1 w2 := fun hn => advance_spares (Ne.symm hn) e2
  have g1 : w1.g = w.g := (advance_mild e1).g
  generalize w3.setCst c { w3.cst c with toiFlag := false, toiCount := (w3.cst c).toiCount + 1 } = w4 at *
  split at e
  · cases e
    set w5 : World F := w4.setCst c { w4.cst c with enabled := false } with hw5
    have s5 : Spares b w2 w5 := s4.trans (.unmoved rfl rfl rfl)
    have t5 : Timely w5 := t4.setCst (fun hh => Or.inl ⟨rfl, hh⟩)
    have f5 : WFrame w w5 := f4.trans (setCst_soft (by rfl) (by rfl)).toWFrame
    have i5 : ∀ y, (w5.phys y).island = (w.phys y).island := i4
    clear_value w5
    have f7 : WFrame w ((w5.restore bA (w.phys bA).sweep).restore bB (w.phys bB).sweep) := (f5.trans (restore_mild _ _ _).toWFrame).trans (restore_mild _ _ _).toWFrame
    have t7 : Timely ((w5.restore bA (w.phys bA).sweep).restore bB (w.phys bB).sweep) :=
      Timely.setPhys (Timely.setPhys t5 (h.times.alpha bA lA)) (h.times.alpha bB lB)
    have i7 : ∀ y, (((w5.restore bA (w.phys bA).sweep).restore bB (w.phys bB).sweep).phys y).island = (w.phys y).island := fun y =>
      ((proj_upd (fun q : Phys F => q.island) (by rfl) y).trans (proj_upd (fun q : Phys F => q.island) (by rfl) y)).trans (i5 y)
    refine ⟨h.winv.frame f7.g f7.bp, fun y hy => by rw [i7]; exact h.clean y (by rw [← f7.g]; exact hy), t7, ?_, by rw [f7.g]; exact h.mem⟩
    by_cases hbA : b = bA
    · subst hbA
      have := H.restore h.full mA e1 ((sA hne).trans s5)
      exact H.full (.setPhys (fun hc => absurd hc (Ne.symm hne))) this
    · by_cases hbB : b = bB
      · subst hbB
        have hsw : (w.phys b).sweep = (w1.phys b).sweep := (congrArg Phys.sweep (sB hbA).core).symm
        rw [hsw]
        exact H.restore (H.full (sB hbA) h.full) (by rw [g1]; exact mB) e2 (s5.trans (.setPhys (fun hc => absurd hc hne)))
      · exact H.full ((sB hbA).trans ((sA hbB).trans (s5.trans (Spares.trans (.setPhys (fun hc => absurd hc.symm hbA)) (.setPhys (fun hc => absurd hc.symm hbB)))))) h.full
  · simp only [Option.bind_eq_some_iff] at e
    obtain ⟨w5, e5, hx⟩ := e
    cases hx
    refine toiSolid_track H hE h0 h1 hdt (h.winv.frame f4.g f4.bp) t4 (fun y hy => by rw [i4]; exact h.clean y (by rw [← f4.g]; exact hy))
      (by rw [f4.g]; exact hc) (by rw [f4.g]; exact Or.inl ⟨hA, hB⟩) (by rw [f4.g]; exact lA) (by rw [f4.g]; exact lB) hne (by rw [f4.g]; exact mA) (by rw [f4.g]; exact mB) (fun n1 n2 => H.full ((sB n1).trans ((sA n2).trans s4)) h.full)
      (fun hor => ?_) (by rw [f4.g]; exact h.mem) e5
    by_cases hbA : b = bA
    · subst hbA
      exact H.half ((sA hne).trans s4) (H.advance h.full mA h0 h1 e1)
    · have hbB : b = bB := hor.resolve_left hbA
      subst hbB
      exact H.half s4 (H.advance (H.full (sB hbA) h.full) (by rw [g1]; exact mB) h0 h1 e2)

/-! ### The search for the first time of impact -/

theorem alignSweeps_track (H : Follows env dt b Full Half Done) {w w' : World F} (h : TL b Full w) {bA bB : Nat} {a : F} (lA : bA ∈ w.g.bodyList) (lB : bB ∈ w.g.bodyList)
    (mA : Act w.g bA) (mB : Act w.g bB) (e : w.alignSweeps bA bB = some (w', a)) : TL b Full w' ∧ 0 ≤ a ∧ a < 1 := by
  have key : ∀ {y : Nat} {t : F} {s : Sweep F}, Act w.g y → 0 ≤ t → t < 1 → (w.phys y).sweep.advance t = some s →
      TL b Full (w.setPhys y { w.phys y with sweep := s }) := by
    intro y t s my ht0 ht1 hs
    refine ⟨h.winv.frame rfl rfl, fun z hz => ?_, h.times.setPhys (by rw [sweep_advance_alpha hs]; exact ht0), ?_, h.mem⟩
    · exact (proj_upd (fun q : Phys F => q.island) (by rfl) z).trans (h.clean z hz)
    · by_cases hyb : y = b
      · subst hyb; exact H.align h.full my ht0 ht1 hs
      · exact H.full (.setPhys (fun hc => absurd hc hyb)) h.full
  unfold alignSweeps at e
  dsimp only at e
  have a0 := h.times.alpha bA lA
  have b0 := h.times.alpha bB lB
  split at e
  · simp only [Option.bind_eq_bind, Option.bind_eq_some_iff] at e
    obtain ⟨s, hs, e⟩ := e
    split at e
    · rename_i hlt
      cases e
      exact ⟨key mA b0 hlt hs, b0, hlt⟩
    · cases e
  split at e
  · simp only [Option.bind_eq_bind, Option.bind_eq_some_iff] at e
    obtain ⟨s, hs, e⟩ := e
    split at e
    · rename_i hlt
      cases e
      exact ⟨key mB a0 hlt hs, a0, hlt⟩
    · cases e
  · split at e
    · rename_i hlt
      cases e
      exact ⟨h, a0, hlt⟩
    · cases e

theorem toiOf_track (H : Follows env dt b Full Half Done) (hT : ToiForward env) {w : World F} (h : TL b Full w) {c : Nat} (hc : c ∈ w.g.contactList) {x : World F × Option F}
    (e : w.toiOf env c = some x) : TL b Full x.1 ∧ ∀ a, x.2 = some a → 0 ≤ a := by
  obtain ⟨bA, bB, hA, hB, hne, lA, lB, mA, mB⟩ := contact_met h.winv hc
  unfold toiOf at e
  dsimp only at e
  split at e
  · cases e; exact ⟨h, fun a h => (by cases h)⟩
  split at e
  · cases e; exact ⟨h, fun a h => (by cases h)⟩
  split at e
  · rename_i hf
    cases e
    refine ⟨h, fun a ha => ?_⟩
    cases ha
    exact h.times.toi c hc hf
  split at e
  · cases e; exact ⟨h, fun a h => (by cases h)⟩
  simp only [hA, hB, Option.bind_eq_bind, Option.bind_some] at e
  split at e
  · cases e
  split at e
  · cases e
  split at e
  · cases e; exact ⟨h, fun a h => (by cases h)⟩
  split at e
  · cases e; exact ⟨h, fun a h => (by cases h)⟩
  simp only [Option.bind_eq_some_iff] at e
  obtain ⟨⟨w1, a0⟩, e1, e⟩ := e
  obtain ⟨h1, k0, k1⟩ := alignSweeps_track H h lA lB mA mB e1
  obtain ⟨r, er, e⟩ := e
  cases e
  have hal : (0 : F) ≤ (if r.1 = true then min (a0 + (1 - a0) * r.2) 1 else 1) := by
    split
    · have := mul_nonneg (sub_nonneg.mpr k1.le) (hT w1 c r er)
      exact le_min (by linarith) zero_le_one
    · exact zero_le_one
  refine ⟨?_, fun a ha => by cases ha; exact hal⟩
  exact h1.spare H.toFollows0 (setCst_soft (s := { w1.cst c with toi := if r.1 = true then min (a0 + (1 - a0) * r.2) 1 else 1, toiFlag := true }) (c := c) (by rfl) (by rfl)).toWFrame
    (fun _ => rfl) (h1.times.setCst (fun _ => Or.inr hal)) (.unmoved rfl rfl rfl)

theorem toiScan_track (H : Follows env dt b Full Half Done) (hT : ToiForward env) : ∀ (l : List Nat) {w w' : World F} {best best' : Option Nat} {m m' : F}, TL b Full w →
    (∀ c ∈ l, c ∈ w.g.contactList) → 0 ≤ m → toiScan env l w best m = some (w', best', m') → TL b Full w' ∧ 0 ≤ m' := by
  intro l
  induction l with
  | nil => intro w w' best best' m m' h _ hm e; cases e; exact ⟨h, hm⟩
  | cons c l ih =>
    intro w w' best best' m m' h hc hm e
    unfold toiScan at e
    simp only [Option.bind_eq_bind, Option.bind_eq_some_iff] at e
    obtain ⟨⟨w1, a⟩, e1, e⟩ := e
    obtain ⟨h1, k1⟩ := toiOf_track H hT h (hc c (by simp)) e1
    have hg := (toiOf_mild e1).1.g
    have hc' : ∀ c ∈ l, c ∈ w1.g.contactList := fun x hx => by rw [hg]; exact hc x (by simp [hx])
    cases a with
    | none => exact ih h1 hc' hm e
    | some alpha =>
      dsimp only at e
      split at e
      · exact ih h1 hc' (k1 alpha rfl) e
      · exact ih h1 hc' hm e

/-- The continuous phase. -/
theorem toiLoop_track (H : Follows env dt b Full Half Done) (hE : LeavesBodies env) (hT : ToiForward env) {step : TimeStep F} (hdt : step.dt = dt) :
    ∀ (n : Nat) {w w' : World F}, TL b Full w → toiLoop env step n w = some w' → TL b Full w' := by
  intro n
  induction n with
  | zero => intro w w' _ e; cases e
  | succ n ih =>
    intro w w' h e
    unfold toiLoop at e
    simp only [Option.bind_eq_bind, Option.bind_eq_some_iff] at e
    obtain ⟨⟨w1, best, m⟩, e1, e⟩ := e
    obtain ⟨h1, hm0⟩ := toiScan_track H hT _ h (fun _ h => h) zero_le_one e1
    obtain ⟨m1, hb⟩ := toiScan_mild _ e1
    have hset : ∀ {v : World F} (f : Bool), TL b Full v → TL b Full { v with stepComplete := f } := fun {v} f hv =>
      ⟨hv.winv.frame rfl rfl, hv.clean, ⟨hv.times.alpha, hv.times.toi⟩, H.full (v := v) (.unmoved rfl rfl rfl) hv.full, hv.mem⟩
    cases best with
    | none => cases e; exact hset _ h1
    | some c =>
      dsimp only at e
      split at e
      · cases e; exact hset _ h1
      rename_i hm
      simp only [Option.bind_eq_some_iff] at e
      obtain ⟨⟨w2, solid⟩, e2, e⟩ := e
      have hc1 : c ∈ w1.g.contactList := by
        rw [m1.g]
        rcases hb c rfl with h | h
        · cases h
        · exact h.1
      have h2 := toiEvent_track H hE hm0 (early_time hm) hdt h1 hc1 e2
      dsimp only at e
      split at e
      · cases e; exact hset _ h2
      · exact ih h2 e

end
end B2
