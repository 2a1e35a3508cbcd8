import Verif.Proofs.WorldToiTrack
import Verif.Proofs.WorldSleep

/-! Following one body through the solution of the islands and through a whole step. -/
namespace B2
set_option linter.unusedSectionVars false
open World Spec

section
variable {F : Type} [Field F] [LinearOrder F] [IsStrictOrderedRing F] [Elem F]

/-- What may be known about body `b` while the islands of a step are solved: `P0` before its island is solved, `P1` after, `P2` when its
boxes have been moved. `g` is the state of lists during the solution, `G` the gravity, `al` tells whether bodies may fall asleep. -/
structure Solves (env : Env F) (step : TimeStep F) (g : Graph F) (G : Vec2 F) (al : Prop) (b : Nat) (P0 P1 P2 : World F → Prop) (T : Nat → Prop := fun c => c ∈ g.contactList) : Prop where
  p0 : ∀ {v v'}, Spares b v v' → P0 v → P0 v'
  p1 : ∀ {v v'}, Spares b v v' → P1 v → P1 v'
  p2 : ∀ {v v'}, Spares b v v' → P2 v → P2 v'
  move : ∀ {v v1 : World F} {isl states states'} {i : Nat}, P0 v → v.g = g → (g.bodies b).enabled = true → v.gravity = G → isl.bodies[i]? = some b →
    Fitted v1 isl → v1.g = g → (∀ c ∈ isl.contacts, T c) → (∀ j ∈ isl.joints, j ∈ g.jointList) →
    v1.phys b = { v.phys b with sweep := { (v.phys b).sweep with c0 := (v.phys b).sweep.c, a0 := (v.phys b).sweep.a } } →
    states[i]? = some (v.initState step.dt b) →
    states'[i]? = some (integratePosition step.dt ⟨(v.phys b).sweep.c, (v.phys b).sweep.a, (env.solveVel v1 isl step states i).1, (env.solveVel v1 isl step states i).2⟩) →
    P1 (v.setPhys b ((v1.phys b).write { integratePosition step.dt ⟨(v.phys b).sweep.c, (v.phys b).sweep.a, (env.solveVel v1 isl step states i).1, (env.solveVel v1 isl step states i).2⟩ with
      c := ((env.solvePos v1 isl step states').1 i).1, a := ((env.solvePos v1 isl step states').1 i).2 }))
  sleep : ∀ {v}, al → P1 v → v.typeOf b ≠ .static → restless (v.phys b) = false → P1 (v.setAwake b false)
  again : ∀ {v}, v.typeOf b = .static → P1 v → P0 v
  sync : ∀ {v v'}, P1 v → WInv v → v.typeOf b ≠ .static → v.synchronizeFixtures b = some v' → P2 v'
  idle : ∀ {v}, P0 v → v.g = g → ((v.phys b).awake = false ∨ (v.g.bodies b).enabled = false ∨ v.typeOf b = .static) → P2 v

variable {env : Env F} {step : TimeStep F} {g : Graph F} {G : Vec2 F} {al : Prop} {b : Nat} {P0 P1 P2 : World F → Prop} {T : Nat → Prop}

/-! ### The search -/

theorem pushBody_spares {y o : Nat} {s s' : Search F} (h : pushBody y s o = some s') : Spares b s.w s'.w := by
  unfold pushBody at h
  split at h
  · cases h; exact .refl _
  split at h
  · cases h
  · cases h; exact .setPhys (by rintro rfl; exact ⟨rfl, id⟩)

theorem visitContact_spares {y : Nat} {s s' : Search F} {e : Nat × Nat} (h : visitContact y s e = some s') : Spares b s.w s'.w := by
  unfold visitContact at h
  dsimp only at h
  split at h
  · cases h; exact .refl _
  split at h
  · cases h; exact .refl _
  split at h
  · cases h; exact .refl _
  · exact Spares.trans (w' := s.w.setCst e.1 { s.w.cst e.1 with island := true }) (.unmoved rfl rfl rfl)
      (pushBody_spares (s := { s with w := s.w.setCst e.1 { s.w.cst e.1 with island := true }, island := { s.island with contacts := s.island.contacts ++ [e.1] } }) h)

theorem visitJoint_spares {y : Nat} {s s' : Search F} {e : Nat × Nat} (h : visitJoint y s e = some s') : Spares b s.w s'.w := by
  unfold visitJoint at h
  split at h
  · cases h; exact .refl _
  split at h
  · cases h; exact .refl _
  · exact Spares.trans (w' := { s.w with jIsland := upd s.w.jIsland e.1 true }) (.unmoved rfl rfl rfl)
      (pushBody_spares (s := { s with w := { s.w with jIsland := upd s.w.jIsland e.1 true }, island := { s.island with joints := s.island.joints ++ [e.1] } }) h)

theorem visitBody_spares {y : Nat} {s s' : Search F} (h : visitBody s y = some s') : Spares b s.w s'.w := by
  unfold visitBody at h
  split at h
  · cases h
  dsimp only at h
  have s1 : Spares b s.w (s.w.setPhys y { s.w.phys y with islandIndex := s.island.bodies.length }) := .setPhys (by rintro rfl; exact ⟨rfl, id⟩)
  generalize s.w.setPhys y { s.w.phys y with islandIndex := s.island.bodies.length } = w1 at *
  split at h
  · cases h; exact s1
  have s2 : Spares b w1 (w1.setPhys y { w1.phys y with awake := true }) := .setPhys (by rintro rfl; exact ⟨rfl, fun _ => rfl⟩)
  simp only [Option.bind_eq_bind, Option.bind_eq_some_iff] at h
  obtain ⟨s3, h3, h4⟩ := h
  refine s1.trans (s2.trans (Spares.trans ?_ ?_ (w' := s3.w)))
  · exact foldlM_inv (fun x : Search F => Spares b _ x.w) h3 (.refl _) (fun e _ x x' hx hv => hx.trans (visitContact_spares hv))
  · exact foldlM_inv (fun x : Search F => Spares b _ x.w) h4 (.refl _) (fun e _ x x' hx hv => hx.trans (visitJoint_spares hv))

theorem search_spares : ∀ {n : Nat} {s s' : Search F}, search n s = some s' → Spares b s.w s'.w := by
  intro n
  induction n with
  | zero => intro s s' h; cases h
  | succ n ih =>
    intro s s' h
    unfold World.search at h
    split at h
    · cases h; exact .refl _
    · simp only [Option.bind_eq_bind, Option.bind_eq_some_iff] at h
      obtain ⟨s1, h1, h2⟩ := h
      exact (visitBody_spares (s := { s with stack := _ }) h1).trans (ih h2)

theorem buildIsland_spares {w : World F} {seed : Nat} {s : Search F} (h : w.buildIsland seed = some s) : Spares b w s.w :=
  Spares.trans (.setPhys (by rintro rfl; exact ⟨rfl, id⟩)) (search_spares h)

/-! ### Solving an island -/

theorem foldl_setPhys_spec (f : World F → Nat → Phys F) (hf : ∀ w w' y, w'.phys y = w.phys y → f w' y = f w y) : ∀ (l : List Nat) (w : World F), l.Nodup →
    (l.foldl (fun w y => w.setPhys y (f w y)) w).g = w.g ∧ (l.foldl (fun w y => w.setPhys y (f w y)) w).bp = w.bp ∧
    ∀ y, (l.foldl (fun w y => w.setPhys y (f w y)) w).phys y = if y ∈ l then f w y else w.phys y := by
  intro l
  induction l with
  | nil => intro w _; exact ⟨rfl, rfl, fun y => by simp⟩
  | cons a l ih =>
    intro w hnd
    obtain ⟨ha, hnd'⟩ := List.nodup_cons.mp hnd
    rw [List.foldl_cons]
    obtain ⟨k1, k2, k3⟩ := ih (w.setPhys a (f w a)) hnd'
    refine ⟨k1, k2, fun y => ?_⟩
    rw [k3 y]
    by_cases hya : y = a
    · subst hya
      rw [if_neg ha, if_pos (by simp)]
      exact upd_same _ _ _
    · have hp : (w.setPhys a (f w a)).phys y = w.phys y := upd_other _ _ hya
      by_cases hyl : y ∈ l
      · rw [if_pos hyl, if_pos (by simp [hyl]), hf _ _ _ hp]
      · rw [if_neg hyl, if_neg (by simp [hya, hyl]), hp]

theorem writeBack_same (l : List Nat) (st : List (BState F)) (u : World F) : (u.writeBack l st).g = u.g ∧ (u.writeBack l st).bp = u.bp := by
  unfold writeBack
  generalize l.zip st = z
  induction z generalizing u with
  | nil => exact ⟨rfl, rfl⟩
  | cons x z ih => rw [List.foldl_cons]; exact ih _

theorem islandMove_track (H : Solves env step g G al b P0 P1 P2 T) (hE : LeavesBodies env) {v v' : World F} {cap : Nat} {isl : Island} {r : Bool}
    (hg : v.g = g) (hG : v.gravity = G) (hx : Fitted v isl) (hnd : isl.bodies.Nodup) (hc : ∀ c ∈ isl.contacts, T c) (hj : ∀ j ∈ isl.joints, j ∈ g.jointList) (hen : ∀ y ∈ isl.bodies, (g.bodies y).enabled = true)
    (e : v.islandMove env cap isl step = some (v', r)) : (b ∉ isl.bodies → Spares b v v') ∧ (b ∈ isl.bodies → P0 v → P1 v') := by
  unfold islandMove at e
  split at e
  · cases e
  simp only [Option.bind_eq_bind, Option.bind_eq_some_iff] at e
  obtain ⟨v3, e, e'⟩ := e
  cases e'
  have hrep := report_spares hE (b := b) e
  set states : List (BState F) := isl.bodies.map (v.initState step.dt) with hst
  set v1 : World F := isl.bodies.foldl (fun w b => w.setPhys b { w.phys b with sweep := { (w.phys b).sweep with c0 := (w.phys b).sweep.c, a0 := (w.phys b).sweep.a } }) v with hv1
  obtain ⟨f1, f2, f3⟩ := foldl_setPhys_spec (fun w y => { w.phys y with sweep := { (w.phys y).sweep with c0 := (w.phys y).sweep.c, a0 := (w.phys y).sweep.a } })
    (fun w w' y h => by dsimp only; rw [h]) isl.bodies v hnd
  rw [← hv1] at f1 f2 f3
  set st1 : List (BState F) := (setVelocities states (env.solveVel v1 isl step states)).map (integratePosition step.dt) with hst1
  set v2 : World F := isl.contacts.zipIdx.foldl (fun w x => w.setCst x.1 { w.cst x.1 with manifold := storeImpulses (w.cst x.1).manifold (env.impulses v1 isl step x.2) }) v1 with hv2
  obtain ⟨q1, q2, q3⟩ := setCsts_same isl.contacts.zipIdx (fun _ x => x.1)
    (fun w x => { w.cst x.1 with manifold := storeImpulses (w.cst x.1).manifold (env.impulses v1 isl step x.2) }) v1
  rw [← hv2] at q1 q2 q3
  clear_value v1 v2
  set st2 : List (BState F) := setPositions st1 (env.solvePos v1 isl step st1).1 with hst2
  have hlen : isl.bodies.length = st2.length := by rw [hst2, hst1, hst]; simp [setVelocities, setPositions]
  obtain ⟨k1, k2⟩ := writeBack_phys (b := b) isl.bodies st2 v2 hnd hlen
  obtain ⟨k3, k4⟩ := writeBack_same isl.bodies st2 v2
  refine ⟨fun hb => ?_, fun hb h0 => ?_⟩
  · refine Spares.trans (.unmoved (k3.trans (q1.trans f1)) (k4.trans (q2.trans f2)) ?_) hrep
    rw [k1 hb, q3, f3, if_neg hb]
  · obtain ⟨i, hi⟩ := List.mem_iff_getElem?.mp hb
    have hx1 : Fitted v1 isl := by
      refine ⟨fun j y hy => ?_, by rw [f1]; exact hx.contacts, by rw [f1]; exact hx.joints⟩
      rw [f3, if_pos (List.mem_of_getElem? hy)]
      exact hx.index j y hy
    have hp1 : v1.phys b = { v.phys b with sweep := { (v.phys b).sweep with c0 := (v.phys b).sweep.c, a0 := (v.phys b).sweep.a } } := by rw [f3, if_pos hb]
    have hs1 : states[i]? = some (v.initState step.dt b) := by rw [hst]; simp [hi]
    have hs2 : st1[i]? = some (integratePosition step.dt ⟨(v.phys b).sweep.c, (v.phys b).sweep.a, (env.solveVel v1 isl step states i).1, (env.solveVel v1 isl step states i).2⟩) := by
      rw [hst1]
      simp only [setVelocities, List.getElem?_map, List.getElem?_mapIdx, hs1, Option.map_some]
      rfl
    have hs3 : st2[i]? = some { integratePosition step.dt ⟨(v.phys b).sweep.c, (v.phys b).sweep.a, (env.solveVel v1 isl step states i).1, (env.solveVel v1 isl step states i).2⟩ with
        c := ((env.solvePos v1 isl step st1).1 i).1, a := ((env.solvePos v1 isl step st1).1 i).2 } := by
      rw [hst2]
      simp only [setPositions, List.getElem?_mapIdx, hs2, Option.map_some]
    have := H.move h0 hg (hen b (List.mem_of_getElem? hi)) hG hi hx1 (f1.trans hg) hc hj hp1 hs1 hs2
    refine H.p1 (Spares.trans (w' := v2.writeBack isl.bodies st2) ?_ hrep) this
    refine .unmoved (k3.trans (q1.trans f1)) (k4.trans (q2.trans f2)) ?_
    rw [k2 i _ hi hs3, q3]
    exact (upd_same _ _ _).symm

theorem sleepIsland_track (H : Solves env step g G al b P0 P1 P2 T) {v : World F} {h : F} {l : List Nat} {solved : Bool} (hnd : l.Nodup) (hal : al) :
    (b ∉ l → Spares b v (v.sleepIsland h l solved)) ∧ (b ∈ l → P1 v → P1 (v.sleepIsland h l solved)) := by
  have m := sleepIsland_mild v h l solved
  obtain ⟨k1, k2, k3⟩ := sleepIsland_spec (w := v) (h := h) (l := l) (solved := solved) hnd
  have ht : (timed v h b).core = (v.phys b).core ∧ ((v.phys b).awake = true → (timed v h b).awake = true) := by
    unfold timed
    split
    · exact ⟨rfl, id⟩
    · exact ⟨rfl, id⟩
  refine ⟨fun hb => .unmoved m.g m.bp (k1 b hb), fun hb hp => ?_⟩
  by_cases hall : (∀ b ∈ l, v.typeOf b ≠ .static → restless (v.phys b) = false ∧ timeToSleep ≤ (v.phys b).sleepTime + h) ∧ solved = true
  · have e := k2 hall b hb
    by_cases hs : v.typeOf b = .static
    · refine H.p1 (.same m.g m.bp ?_) hp
      rw [e]
      unfold Phys.setAwake
      rw [if_pos hs]
      exact ht
    · refine H.p1 (v := v.setAwake b false) (.same (by rw [m.g]; rfl) (by rw [m.bp]; rfl) ?_) (H.sleep hal hp hs (hall.1 b hb hs).1)
      rw [e]
      show SameCore _ (upd v.phys b _ b) _
      rw [upd_same]
      unfold Phys.setAwake timed
      rw [if_neg hs, if_neg hs, if_neg hs]
      exact ⟨rfl, id⟩
  · refine H.p1 (.same m.g m.bp ?_) hp
    rw [k3 hall b hb]
    exact ht

theorem islandSolve_track (H : Solves env step g G al b P0 P1 P2 T) (hE : LeavesBodies env) {v v' : World F} {cap : Nat} {isl : Island}
    (hg : v.g = g) (hG : v.gravity = G) (ha : v.allowSleep = true → al) (hx : Fitted v isl) (hnd : isl.bodies.Nodup)
    (hc : ∀ c ∈ isl.contacts, T c) (hj : ∀ j ∈ isl.joints, j ∈ g.jointList) (hen : ∀ y ∈ isl.bodies, (g.bodies y).enabled = true)
    (e : v.islandSolve env cap isl step = some v') : (b ∉ isl.bodies → Spares b v v') ∧ (b ∈ isl.bodies → P0 v → P1 v') := by
  obtain ⟨v1, r, e1, rfl⟩ := islandSolve_inv e
  obtain ⟨k1, k2⟩ := islandMove_track H hE hg hG hx hnd hc hj hen e1
  split
  · rename_i hal
    have hal' : v.allowSleep = true := by rw [← (islandMove_mild e1).toWFrame.allowSleep]; exact hal
    obtain ⟨q1, q2⟩ := sleepIsland_track H (v := v1) (h := step.dt) (solved := r) hnd (ha hal')
    exact ⟨fun hb => (k1 hb).trans (q1 hb), fun hb h0 => q2 hb (k2 hb h0)⟩
  · exact ⟨k1, k2⟩

theorem releaseStatics_spares (v : World F) (l : List Nat) : Spares b v (v.releaseStatics l) := by
  refine Spares.foldl (fun u y _ => ?_) v
  split
  · exact .setPhys (by rintro rfl; exact ⟨rfl, id⟩)
  · exact .refl _

/-- What holds between two seeds. -/
structure SS (b : Nat) (P0 P1 P2 : World F → Prop) (g : Graph F) (G : Vec2 F) (al : Prop) (w : World F) (seen : List Nat) : Prop where
  g : w.g = g
  gravity : w.gravity = G
  allow : w.allowSleep = true → al
  before : (w.phys b).island = false → P0 w
  after : (w.phys b).island = true → P1 w ∧ w.typeOf b ≠ .static
  seen : b ∈ seen → (w.phys b).island = false → P2 w

theorem seeds_track (H : Solves env step g G al b P0 P1 P2 T) (hE : LeavesBodies env) (hP : PostSolveLinks env) {w1 : World F} (hi : GInv w1.g) (hg : w1.g = g) (hT : ∀ c, Transmits w1 c → T c) (hb : b ∈ g.bodyList) (l : List Nat) :
    (∀ y ∈ l, y ∈ w1.g.bodyList) → ∀ {w w' : World F} {isls isls' : List Island} {seen : List Nat}, GI w1 w isls → CI w1 w isls → SS b P0 P1 P2 g G al w seen →
      l.foldlM (solveSeed env step) (w, isls) = some (w', isls') → SS b P0 P1 P2 g G al w' (seen ++ l) := by
  induction l with
  | nil => intro _ w w' isls isls' seen _ _ hS e; cases e; rw [List.append_nil]; exact hS
  | cons a l ih =>
    intro hl w w' isls isls' seen hG hC hS e
    have ha : a ∈ w1.g.bodyList := hl a (by simp)
    rw [List.foldlM_cons] at e
    have happ : seen ++ a :: l = (seen ++ [a]) ++ l := by simp
    rw [happ]
    rcases solveSeed_spec (env := env) (step := step) (isls := isls) (by rw [hG.g]; exact hi) hG.ends (show a ∈ w.g.bodyList by rw [hG.g]; exact ha) with ⟨p, q⟩ | ⟨p, s, s1, a2, a3, a4, a5, q⟩
    · rw [q] at e
      refine ih (fun y hy => hl y (by simp [hy])) hG hC ⟨hS.g, hS.gravity, hS.allow, hS.before, hS.after, fun hbs hf => ?_⟩ e
      rcases List.mem_append.mp hbs with hbs | hbs
      · exact hS.seen hbs hf
      · rw [List.mem_singleton] at hbs
        subst hbs
        refine H.idle (hS.before hf) hS.g ?_
        by_contra hn
        simp only [not_or, Bool.not_eq_false] at hn
        have := isSeed_iff.mpr ⟨hf, hn.1, hn.2.1, hn.2.2⟩
        rw [p] at this; cases this
    · rw [q] at e
      cases e1 : s.w.islandSolve env s.w.g.bodyCount s.island step with
      | none => rw [e1] at e; cases e
      | some v =>
        rw [e1] at e
        have g' := hG.seed a2 a3 e1
        have hfl : ∀ y, (s.w.phys y).island = true ↔ (w.phys y).island = true ∨ y ∈ s.island.bodies := by
          intro y; have := a2.flag y; rw [a3, List.append_nil] at this; exact this
        have hnd : s.island.bodies.Nodup := by have := a2.nodup; rw [a3, List.append_nil] at this; exact this
        have sp0 : Spares b w s.w := buildIsland_spares s1
        have fr0 : WFrame w s.w := by
          have := s1
          unfold buildIsland at this
          exact (setPhys_mild (w := w) (b := a) (p := { w.phys a with island := true }) (by intro _; rfl)).toWFrame.trans (search_mild this).toWFrame
        have hsg : s.w.g = g := by rw [fr0.g]; exact hS.g
        obtain ⟨k1, k2⟩ := islandSolve_track (b := b) H hE hsg (fr0.gravity.trans hS.gravity) (by rw [fr0.allowSleep]; exact hS.allow) (CI.fitted hi hG hC a2 a3) hnd
          (fun c hc => hT c (CI.onlyC' hi hG hC a2 a3 c hc).1)
          (fun j hj => by
            obtain ⟨-, x, -, -, y, t⟩ := a2.jfresh j hj
            rw [← hS.g]; exact t.mem) (fun y hy => by
              rw [← hS.g]; exact (a2.fresh y (List.mem_append.mpr (.inl hy))).2.2.1) e1
        have cm := islandSolve_calm0 e1
        have ml := (islandSolve_mild e1).toWFrame
        obtain ⟨r1, r2, r3, r4⟩ := releaseStatics_spec s.island.bodies v
        have rs := releaseStatics_spares (b := b) v s.island.bodies
        have rm := (releaseStatics_mild v s.island.bodies).toWFrame
        have fr : WFrame w (v.releaseStatics s.island.bodies) := (fr0.trans ml).trans rm
        have hvg : v.g = g := by rw [ml.g]; exact hsg
        have hty : (v.releaseStatics s.island.bodies).typeOf b = (v.g.bodies b).type := by rw [(rm.typeOf b)]; rfl
        have aft : (v.phys b).island = true → P1 v ∨ ((w.phys b).island = true ∧ P1 v) := by
          intro hf
          rw [cm.island, hfl] at hf
          by_cases hbm : b ∈ s.island.bodies
          · exact .inl (k2 hbm (H.p0 sp0 (hS.before (a2.fresh b (List.mem_append.mpr (.inl hbm))).1)))
          · have hf := hf.resolve_right hbm
            exact .inr ⟨hf, H.p1 (sp0.trans (k1 hbm)) (hS.after hf).1⟩
        have bef : ((v.releaseStatics s.island.bodies).phys b).island = false → P0 (v.releaseStatics s.island.bodies) := by
          intro hf
          by_cases hfv : (v.phys b).island = true
          · have hst : b ∈ s.island.bodies ∧ (v.g.bodies b).type = .static := by
              by_contra hn
              rw [(r4 b).mpr ⟨hfv, hn⟩] at hf
              cases hf
            have hP : P1 v := (aft hfv).elim id (fun h => h.2)
            exact H.again (hty.trans hst.2) (H.p1 rs hP)
          · have hfs : (s.w.phys b).island = false := by rw [← cm.island]; simpa using hfv
            have hn : ¬ ((w.phys b).island = true ∨ b ∈ s.island.bodies) := by rw [← hfl, hfs]; simp
            rw [not_or] at hn
            exact H.p0 ((sp0.trans (k1 hn.2)).trans rs) (hS.before (by simpa using hn.1))
        refine ih (fun y hy => hl y (by simp [hy])) g' (CI.seed hP hi hG hC a2 a3 e1) ⟨fr.g.trans hS.g, fr.gravity.trans hS.gravity, by rw [fr.allowSleep]; exact hS.allow, bef, fun hf => ?_, fun hbs hf => ?_⟩ e
        · obtain ⟨hfv, hn⟩ := (r4 b).mp hf
          refine ⟨H.p1 rs ((aft hfv).elim id (fun h => h.2)), ?_⟩
          rw [hty]
          intro hst
          rw [cm.island, hfl] at hfv
          rcases hfv with hfv | hfv
          · refine (hS.after hfv).2 ?_
            show (w.g.bodies b).type = .static
            rw [hS.g, ← hvg]; exact hst
          · exact hn ⟨hfv, hst⟩
        · by_cases hbm : b ∈ s.island.bodies
          · refine H.idle (bef hf) (fr.g.trans hS.g) (.inr (.inr ?_))
            rw [hty]
            by_contra hn
            have : ((v.releaseStatics s.island.bodies).phys b).island = true :=
              (r4 b).mpr ⟨by rw [cm.island]; exact (hfl b).mpr (.inr hbm), fun h => hn h.2⟩
            rw [hf] at this; cases this
          · have hfw : (w.phys b).island = false := by
              by_contra hn
              rw [Bool.not_eq_false] at hn
              have h2 := (hS.after hn).2
              have : ((v.releaseStatics s.island.bodies).phys b).island = true :=
                (r4 b).mpr ⟨by rw [cm.island]; exact (hfl b).mpr (.inl hn), fun h => hbm h.1⟩
              rw [hf] at this; cases this
            have hbs' : b ∈ seen := by
              rcases List.mem_append.mp hbs with hbs | hbs
              · exact hbs
              · rw [List.mem_singleton] at hbs
                subst hbs
                exact absurd (List.mem_of_mem_head? a4) hbm
            exact H.p2 ((sp0.trans (k1 hbm)).trans rs) (hS.seen hbs' hfw)

theorem clearIslandFlags_spares (w : World F) : Spares b w w.clearIslandFlags := by
  unfold clearIslandFlags
  refine Spares.trans (Spares.foldl (fun u y _ => ?_) w) (Spares.trans (Spares.foldl (fun u y _ => ?_) _) (Spares.foldl (fun u y _ => ?_) _))
  · exact .setPhys (by rintro rfl; exact ⟨rfl, id⟩)
  · exact .unmoved rfl rfl rfl
  · exact .unmoved rfl rfl rfl

theorem solveIslands_track (H : Solves env step g G al b P0 P1 P2 T) (hE : LeavesBodies env) (hP : PostSolveLinks env) {w w' : World F} {isls : List Island} (hw : GInv w.g) (hb : b ∈ w.g.bodyList)
    (hg : w.g = g) (hT : ∀ c, Transmits w c → T c) (hG : w.gravity = G) (ha : w.allowSleep = true → al) (h0 : P0 w) (e : w.solveIslands env step = some (w', isls)) :
    ((w'.phys b).island = false → P2 w') ∧ ((w'.phys b).island = true → P1 w' ∧ w'.typeOf b ≠ .static) := by
  have m := (clearIslandFlags_mild w).toWFrame
  unfold solveIslands at e
  have hS : SS b P0 P1 P2 g G al w.clearIslandFlags [] := by
    refine ⟨m.g.trans hg, m.gravity.trans hG, by rw [m.allowSleep]; exact ha, fun _ => H.p0 (clearIslandFlags_spares w) h0, fun hf => ?_, fun hx => by cases hx⟩
    rw [(clearIslandFlags_spec w).1 b hb] at hf
    cases hf
  have := seeds_track H hE hP hw hg hT (hg ▸ hb) _ (fun y hy => by rw [m.g] at hy; exact hy) (GI.start w) (CI.start w) hS e
  exact ⟨this.seen (by rw [m.g]; exact hb), this.after⟩

theorem solve_track (H : Solves env step g G al b P0 P1 P2 T) (hE : LeavesBodies env) (hP : PostSolveLinks env) {w w' : World F} (hw : WInv w) (hb : b ∈ w.g.bodyList)
    (hg : w.g = g) (hT : ∀ c, Transmits w c → T c) (hG : w.gravity = G) (ha : w.allowSleep = true → al) (h0 : P0 w) (e : w.solve env step = some w') : P2 w' := by
  unfold solve at e
  simp only [Option.bind_eq_bind, Option.bind_eq_some_iff] at e
  obtain ⟨⟨w1, isl⟩, e1, w2, e2, e3⟩ := e
  obtain ⟨k1, k2⟩ := solveIslands_track H hE hP hw.toGInv hb hg hT hG ha h0 e1
  have m1 := (solveIslands_mild e1).toWFrame
  have hw1 : WInv w1 := hw.frame m1.g m1.bp
  have hnd : w1.g.bodyList.Nodup := hw1.body.nodup
  dsimp only at e2
  have key : WInv w2 ∧ w2.g = w1.g ∧ w2.phys = w1.phys ∧ (b ∈ w1.g.bodyList → P2 w2) ∧ (b ∉ w1.g.bodyList → Spares b w1 w2) := by
    refine foldlM_pre (fun pre (v : World F) => WInv v ∧ v.g = w1.g ∧ v.phys = w1.phys ∧ (b ∈ pre → P2 v) ∧ (b ∉ pre → Spares b w1 v)) e2
      ⟨hw1, rfl, rfl, fun h => (by cases h), fun _ => .refl _⟩ ?_
    rintro pre x post hl v v' ⟨q1, q2, q3, q4, q5⟩ hv
    have hx : x ∉ pre := by
      rw [hl] at hnd
      intro hx
      exact (List.nodup_append.mp hnd).2.2 x hx x (by simp) rfl
    have unch : (x = b → P2 v) → WInv v ∧ v.g = w1.g ∧ v.phys = w1.phys ∧ (b ∈ pre ++ [x] → P2 v) ∧ (b ∉ pre ++ [x] → Spares b w1 v) := by
      intro hp
      refine ⟨q1, q2, q3, fun hm => ?_, fun hm => q5 (fun h => hm (by simp [h]))⟩
      rcases List.mem_append.mp hm with hm | hm
      · exact q4 hm
      · exact hp (List.mem_singleton.mp hm).symm
    split at hv
    · rename_i hf
      cases hv
      refine unch ?_
      rintro rfl
      rw [q3] at hf
      exact H.p2 (q5 hx) (k1 hf)
    split at hv
    · rename_i hf hst
      cases hv
      refine unch ?_
      rintro rfl
      rw [q3, Bool.not_eq_false] at hf
      refine absurd ?_ (k2 hf).2
      unfold World.typeOf at hst ⊢
      rw [← q2]; exact hst
    · rename_i hf hst
      obtain ⟨t1, t2, t3⟩ := synchronizeFixtures_track q1 hv
      obtain ⟨w2', j1, j2, j3⟩ := synchronizeFixtures_spec x q1.pinv
      rw [j1] at hv
      cases hv
      have hg' : v'.g = v.g := by rw [t1.frame]
      have hp' : v'.phys = v.phys := by rw [t1.frame]
      refine ⟨(Good.bpf (env := env) q1 j2 j3).winv, hg'.trans q2, hp'.trans q3, fun hm => ?_, fun hm => ?_⟩
      · by_cases hxb : x = b
        · subst hxb
          rw [q3, Bool.not_eq_false] at hf
          exact H.sync (H.p1 (q5 hx) (k2 hf).1) q1 hst j1
        · rcases List.mem_append.mp hm with hm | hm
          · exact H.p2 (synchronizeFixtures_spares q1 hxb j1) (q4 hm)
          · exact absurd (List.mem_singleton.mp hm).symm hxb
      · have hxb : x ≠ b := fun h => hm (by simp [h])
        exact (q5 (fun h => hm (by simp [h]))).trans (synchronizeFixtures_spares q1 hxb j1)
  exact H.p2 (findNewContacts_spares key.1 e3) (key.2.2.2.1 (by rw [m1.g]; exact hb))

end
end B2
