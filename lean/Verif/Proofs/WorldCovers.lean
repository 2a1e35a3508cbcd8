import Verif.Proofs.WorldPlain
import Verif.Proofs.WorldComplete
import Verif.Proofs.WorldDisabled

/-! Fat boxes and the boxes of shapes, through the calls of a world other than `step`. -/
namespace B2
set_option linter.unusedSectionVars false
open World Spec

section
variable {F : Type} [Field F] [LinearOrder F] [IsStrictOrderedRing F] [Elem F]
variable {env : Env F}

/-- Every proxy's fat box covers the box of its shape at the transform of its body. -/
def AllCovered (w : World F) : Prop := ∀ b ∈ w.g.bodyList, Covered w b

theorem AllCovered.fit {w : World F} (hw : WInv w) (h : AllCovered w) {gh : Nat → Option (Proxy F (Nat × Nat))} {buf : List Nat} {rep : Set (Nat × Nat)}
    (hb : BHist w.bp gh buf rep) {id : Nat} {p : Proxy F (Nat × Nat)} (hp : gh id = some p) : Live w.g p.data.1 p.data.2 ∧ ∃ a, Fit w p.data a ∧ Covers p.fat a := by
  obtain ⟨gh1, buf1, rep1, pi⟩ := hw.prox
  obtain ⟨-, t, -⟩ := hb.agree pi.hist
  obtain ⟨q, q1, q2, q3⟩ := t id p hp
  obtain ⟨l, k⟩ := pi.only id q q1
  rw [q2] at l k
  refine ⟨l, ?_⟩
  have l' := l
  obtain ⟨b, hbl, hen, hfb, -⟩ := l'
  obtain ⟨fat, box, c1, c2, c3⟩ := h b hbl p.data.1 ((hw.body.fixtures b _).mpr ⟨hbl, hfb⟩) p.data.2 l id k
  rw [getFat_of hb hp] at c1
  cases c1
  exact ⟨box, ⟨b, hfb, c2⟩, c3⟩

theorem AllCovered.of_fit {w : World F} (hw : WInv w) {gh : Nat → Option (Proxy F (Nat × Nat))} {buf : List Nat} {rep : Set (Nat × Nat)}
    (hb : BHist w.bp gh buf rep) (h : ∀ id p, gh id = some p → Live w.g p.data.1 p.data.2 → ∃ a, Fit w p.data a ∧ Covers p.fat a) : AllCovered w := by
  intro b hbl f hf i hl id hid
  obtain ⟨gh1, buf1, rep1, pi⟩ := hw.prox
  obtain ⟨-, -, t⟩ := hb.agree pi.hist
  obtain ⟨id1, p, a1, a2, a3⟩ := pi.has f i hl
  rw [hid] at a1
  cases a1
  obtain ⟨q, q1, q2, q3⟩ := t _ p a2
  obtain ⟨a, ⟨b', hb', e⟩, hc⟩ := h _ q q1 (by rw [q2, a3]; exact hl)
  rw [q2, a3] at hb' e
  have := ((hw.body.fixtures b f).mp hf).2
  rw [this] at hb'
  cases hb'
  exact ⟨_, a, getFat_of hb q1, e, hc⟩

/-- The boxes stay covered if new fat boxes cover what they should and the other boxes have not changed. -/
theorem AllCovered.carry {w w' : World F} {N : Nat × Nat → AABB F → Prop} (hw : WInv w) (hw' : WInv w') (h : AllCovered w) (bt : BT N w.bp w'.bp)
    (hN : ∀ d a, Live w'.g d.1 d.2 → N d a → Fit w' d a) (hF : ∀ d a, Live w'.g d.1 d.2 → Live w.g d.1 d.2 → Fit w d a → Fit w' d a) : AllCovered w' := by
  obtain ⟨gh, buf, rep, pi⟩ := hw.prox
  obtain ⟨gh', buf', rep', pi'⟩ := hw'.prox
  refine .of_fit hw' pi'.hist fun id p hp hl => ?_
  rcases bt.fats _ _ _ _ _ _ pi.hist pi'.hist id p hp with ⟨a, k1, k2⟩ | ⟨q, k1, k2, k3⟩
  · exact ⟨a, hN _ _ hl k1, k2⟩
  · obtain ⟨l, a, m1, m2⟩ := h.fit hw pi.hist k1
    rw [k2] at l m1
    rw [k3] at m2
    exact ⟨a, hF _ _ hl l m1, m2⟩

/-- As `AllCovered.carry`, when no body has been moved. -/
theorem AllCovered.still {w w' : World F} {N : Nat × Nat → AABB F → Prop} {D : Nat → Nat → Prop} {T : Nat → Prop} (hw : WInv w) (hw' : WInv w') (h : AllCovered w) (c : Carry N D T w w')
    (hx : ∀ b ∈ w'.g.bodyList, b ∈ w.g.bodyList → (w'.phys b).xf = (w.phys b).xf)
    (hN : ∀ d a, Live w'.g d.1 d.2 → N d a → Fit w' d a ∨ Fit w d a ∧ ∃ b ∈ w.g.bodyList, (w.g.fixtures d.1).body = some b) : AllCovered w' := by
  have fit : ∀ d a, Live w'.g d.1 d.2 → (∃ b ∈ w.g.bodyList, (w.g.fixtures d.1).body = some b) → Fit w d a → Fit w' d a := by
    rintro d a ⟨b', hbl', -, hf', -⟩ ⟨b, hbl, hf⟩ ⟨b1, k1, k2⟩
    rw [hf] at k1
    cases k1
    have e1 := c.body _ _ _ hf hf'
    subst e1
    exact ⟨_, hf', by rw [c.shape _ _ _ hf hf', hx _ hbl' hbl]; exact k2⟩
  refine h.carry hw hw' c.bt (fun d a hl k => ?_) (fun d a hl hl' k => ?_)
  · rcases hN d a hl k with k | ⟨k1, k2⟩
    · exact k
    · exact fit d a hl k2 k1
  · obtain ⟨b, hb, -, hf, -⟩ := id hl'
    exact fit d a hl ⟨b, hb, hf⟩ k

/-! ### The calls -/

theorem xf_run {t : BodyType} {fs : List (F × Shape F)} {p p' : Phys F} {op : BodyOp F} (e : op.run t fs p = some p') : p'.xf = p.xf := by
  have aw : ∀ (p : Phys F) fl, (p.setAwake t fl).xf = p.xf := fun p fl => by
    unfold Phys.setAwake; split
    · rfl
    split <;> rfl
  have gate : ∀ (p : Phys F) wk, (p.applyGate t wk).1.xf = p.xf := fun p wk => by
    unfold Phys.applyGate; split
    · rfl
    dsimp only
    split
    · exact aw _ _
    · rfl
  cases op <;> simp only [BodyOp.run, Option.some.injEq] at e
  case setFixedRotation flag =>
    unfold Phys.setFixedRotation at e
    split at e
    · cases e; rfl
    · exact (reset_xf e).trans rfl
  case resetMassData => exact reset_xf e
  all_goals subst e
  case setAwake => exact aw _ _
  case setLinearVelocity =>
    unfold Phys.setLinearVelocity
    split
    · rfl
    dsimp only
    split
    · exact aw _ _
    · rfl
  case setAngularVelocity =>
    unfold Phys.setAngularVelocity
    split
    · rfl
    dsimp only
    split
    · exact aw _ _
    · rfl
  case setSleepingAllowed flag =>
    unfold Phys.setSleepingAllowed
    dsimp only
    split
    · rfl
    · exact aw _ _
  case applyForce => unfold Phys.applyForce; dsimp only; split <;> exact gate _ _
  case applyForceToCenter => unfold Phys.applyForceToCenter; dsimp only; split <;> exact gate _ _
  case applyTorque => unfold Phys.applyTorque; dsimp only; split <;> exact gate _ _
  case applyLinearImpulse => unfold Phys.applyLinearImpulse; dsimp only; split <;> exact gate _ _
  case applyLinearImpulseToCenter => unfold Phys.applyLinearImpulseToCenter; dsimp only; split <;> exact gate _ _
  case applyAngularImpulse => unfold Phys.applyAngularImpulse; dsimp only; split <;> exact gate _ _
  all_goals rfl

theorem xf_unmoving (X : Xf F) : Unmoving env (fun _ _ => True) (fun _ p => p.xf = X) where
  run t fs p p' op _ e h := (xf_run e).trans h
  awake _ := trivial
  reset _ := trivial
  obeys _ _ _ _ _ _ _ _ := trivial
  retype t t' fs p p' e h := by
    unfold Phys.settle
    split
    · exact (reset_xf e).trans h
    · exact (xf_run (t := t') (fs := []) (op := .setAwake true) rfl).trans ((reset_xf e).trans h)
  data t m p p' e h := by
    unfold Phys.setMassData at e
    split at e
    · cases e; exact h
    dsimp only at e
    have mc : ∀ (p : Phys F) c, (p.moveCenter c).xf = p.xf := fun _ _ => rfl
    repeat' split at e
    all_goals first
      | (cases e; done)
      | (cases e; rw [mc]; exact h)
  clear _ _ h := h

/-- Moving a shape by moving its transform moves its box. -/
theorem computeAabb_shift (s : Shape F) (xf : Xf F) (o : Vec2 F) (i : Nat) :
    s.computeAabb ⟨xf.p - o, xf.q⟩ i = (s.computeAabb xf i).map (shift o) := by
  have mul : ∀ v, (⟨xf.p - o, xf.q⟩ : Xf F).mulV v = xf.mulV v - o := fun v => by
    simp only [Xf.mulV, Vec2.ext_iff, Vec2.sub_x, Vec2.sub_y]; constructor <;> ring
  have mn : ∀ a b : Vec2 F, minV (a - o) (b - o) = minV a b - o := fun a b => by
    simp only [minV, Vec2.ext_iff, Vec2.sub_x, Vec2.sub_y, b2min_eq, min_sub_sub_right, and_self]
  have mx : ∀ a b : Vec2 F, maxV (a - o) (b - o) = maxV a b - o := fun a b => by
    simp only [maxV, Vec2.ext_iff, Vec2.sub_x, Vec2.sub_y, b2max_eq, max_sub_sub_right, and_self]
  have fin : ∀ (a b r : Vec2 F), (⟨a - o - r, b - o + r⟩ : AABB F) = shift o ⟨a - r, b + r⟩ := fun a b r => by
    simp only [shift, AABB.mk.injEq, Vec2.ext_iff, Vec2.sub_x, Vec2.sub_y, Vec2.add_x, Vec2.add_y]
    refine ⟨⟨?_, ?_⟩, ?_, ?_⟩ <;> ring
  cases s with
  | circle c =>
    simp only [Shape.computeAabb, Circle.computeAabb, Option.map_some, shift, Option.some.injEq, AABB.mk.injEq, Vec2.mk.injEq, Vec2.sub_x, Vec2.sub_y, Vec2.add_x, Vec2.add_y]
    refine ⟨⟨?_, ?_⟩, ?_, ?_⟩ <;> ring
  | edge c =>
    simp only [Shape.computeAabb, Edge.computeAabb, Option.map_some, mul, mn, mx, fin]
  | polygon c =>
    simp only [Shape.computeAabb, Polygon.computeAabb, Option.map_some, mul]
    have : ∀ (l : List (Vec2 F)) (x y : Vec2 F), l.foldl (fun (b : Vec2 F × Vec2 F) v => (minV b.1 (xf.mulV v - o), maxV b.2 (xf.mulV v - o))) (x - o, y - o) =
        ((l.foldl (fun (b : Vec2 F × Vec2 F) v => (minV b.1 (xf.mulV v), maxV b.2 (xf.mulV v))) (x, y)).1 - o,
          (l.foldl (fun (b : Vec2 F × Vec2 F) v => (minV b.1 (xf.mulV v), maxV b.2 (xf.mulV v))) (x, y)).2 - o) := by
      intro l
      induction l with
      | nil => intro x y; rfl
      | cons v l ih =>
        intro x y
        simp only [List.foldl_cons, mn, mx]
        exact ih _ _
    rw [this, fin]
  | chain c =>
    simp only [Shape.computeAabb, Chain.computeAabb, Option.bind_eq_bind, mul, mn, mx, fin]
    cases c.ends i <;> rfl

theorem foldl_setPhys (g : Phys F → Phys F) : ∀ (l : List Nat) (w : World F), l.Nodup → ∀ b,
    (l.foldl (fun (w : World F) b => w.setPhys b (g (w.phys b))) w).phys b = if b ∈ l then g (w.phys b) else w.phys b := by
  intro l
  induction l with
  | nil => intro w _ b; simp
  | cons x l ih =>
    intro w hn b
    rw [List.foldl_cons, ih _ (List.nodup_cons.mp hn).2]
    have hx := (List.nodup_cons.mp hn).1
    by_cases hb : b = x
    · subst hb
      rw [if_neg hx, if_pos List.mem_cons_self]
      unfold World.setPhys; dsimp only; rw [upd_same]
    · have : (w.setPhys x (g (w.phys x))).phys b = w.phys b := by unfold World.setPhys; dsimp only; rw [upd_other _ _ hb]
      rw [this]
      simp only [List.mem_cons, hb, false_or]

/-- `shift_origin` moves every body. -/
theorem shiftOrigin_phys {w w' : World F} {o : Vec2 F} (hn : w.g.bodyList.Nodup) (e : w.shiftOrigin o = some w') : ∀ b ∈ w.g.bodyList,
    w'.phys b = { w.phys b with xf := ⟨(w.phys b).xf.p - o, (w.phys b).xf.q⟩, sweep := { (w.phys b).sweep with c0 := (w.phys b).sweep.c0 - o, c := (w.phys b).sweep.c - o } } := by
  unfold shiftOrigin at e
  split at e
  · cases e
  cases e
  intro b hb
  have := foldl_setPhys (fun p : Phys F => { p with xf := ⟨p.xf.p - o, p.xf.q⟩, sweep := { p.sweep with c0 := p.sweep.c0 - o, c := p.sweep.c - o } }) w.g.bodyList w hn b
  rw [if_pos hb] at this
  exact this

theorem covers_shift' {o : Vec2 F} {a b : AABB F} (h : Covers a b) : Covers (shift o a) (shift o b) := by
  unfold Covers shift at *
  simp only [sub_le_sub_iff_right]
  exact h

theorem call_covers {w w' : World F} (c : Call F) (h : HInv env w) (hc : AllCovered w) (hok : c.Ok w) (hs : ∀ dt vi pi, c ≠ .step dt vi pi)
    (e : c.run env w = some w') (h' : WInv w') : AllCovered w' := by
  have hw := h.toWInv
  by_cases h1 : ∃ d, c = .createBody d
  · obtain ⟨d, rfl⟩ := h1
    simp only [Call.run, Option.map_eq_some_iff] at e
    obtain ⟨⟨v, b⟩, e, rfl⟩ := e
    have k := createBody_carry (N := fun _ _ => False) hw e (fun _ _ => True)
    refine hc.still hw h' k (fun x hx hx' => ?_) (fun _ _ _ k => k.elim)
    unfold createBody at e
    split at e
    · cases e
    simp only [Option.bind_eq_bind, Option.bind_eq_some_iff] at e
    obtain ⟨p, e1, e2⟩ := e
    cases e2
    dsimp only
    rw [upd_other _ _ (Nat.ne_of_lt (hw.body.lt x hx'))]
  by_cases h2 : ∃ b p a, c = .setTransform b p a
  · obtain ⟨b, p, a, rfl⟩ := h2
    simp only [Call.run] at e
    unfold setTransform at e
    split at e
    · cases e
    simp only [Option.bind_eq_bind, Option.bind_eq_some_iff] at e
    obtain ⟨v, e1, e2⟩ := e
    cases e2
    set w1 := w.setPhys b { w.phys b with
      xf := ⟨p, Rot.ofAngle a⟩, sweep := { (w.phys b).sweep with c := (⟨p, Rot.ofAngle a⟩ : Xf F).mulV (w.phys b).sweep.localCenter, a := a, c0 := (⟨p, Rot.ofAngle a⟩ : Xf F).mulV (w.phys b).sweep.localCenter, a0 := a } } with hw1
    obtain ⟨k1, k2, k3⟩ := Syncing.fixtures (w := w1) (hw.frame rfl rfl) e1
    have hg : v.g = w.g := by rw [k1.frame]; rfl
    have hp : v.phys = w1.phys := by rw [k1.frame]
    intro x hx f hf i hl
    show CoversAt v (v.phys x).xf f i
    replace hf : f ∈ (v.g.bodies x).fixtures := hf
    replace hl : Live v.g f i := hl
    replace hx : x ∈ v.g.bodyList := hx
    rw [hg] at hf hl hx
    by_cases hxb : x = b
    · subst hxb
      have : (v.phys x).xf = ⟨p, Rot.ofAngle a⟩ := by rw [hp, hw1]; unfold World.setPhys; dsimp only; rw [upd_same]
      rw [this]
      exact k2 f hf i hl
    · have : (v.phys x).xf = (w.phys x).xf := by rw [hp, hw1]; unfold World.setPhys; dsimp only; rw [upd_other _ _ hxb]
      rw [this]
      intro id hid
      rw [hg] at hid
      have hn : f ∉ (w.g.bodies b).fixtures := fun hf' => by
        have h1 := ((hw.body.fixtures x f).mp hf).2
        rw [((hw.body.fixtures b f).mp hf').2] at h1
        exact hxb (Option.some.inj h1).symm
      rw [k3 f i id hl hn hid, hg]
      exact hc x hx f hf i hl id hid
  by_cases h3 : ∃ o, c = .shiftOrigin o
  · obtain ⟨o, rfl⟩ := h3
    obtain ⟨v, e', -, -, -, k1, k2, -⟩ := shiftOrigin_spec' (env := env) o hw h.unlocked
    have : w' = v := Option.some.inj (e.symm.trans e')
    subst this
    obtain ⟨gh, buf, rep, pi⟩ := hw.prox
    have hx : ∀ b ∈ w.g.bodyList, (w'.phys b).xf = ⟨(w.phys b).xf.p - o, (w.phys b).xf.q⟩ := fun b hb => by
      rw [shiftOrigin_phys hw.body.nodup e b hb]
    have hb := BHist.shift o pi.hist
    rw [← k2] at hb
    refine .of_fit h' hb fun id q hq hl => ?_
    simp only [Option.map_eq_some_iff] at hq
    obtain ⟨p, hp, rfl⟩ := hq
    obtain ⟨l, a, ⟨b, m1, m2⟩, m3⟩ := hc.fit hw pi.hist hp
    have hbl : b ∈ w.g.bodyList := by
      obtain ⟨b', hb', -, hf', -⟩ := l
      rw [m1] at hf'
      cases hf'
      exact hb'
    refine ⟨shift o a, ⟨b, by rw [k1]; exact m1, ?_⟩, covers_shift' m3⟩
    rw [k1, hx b hbl]
    exact (computeAabb_shift _ _ _ _).trans (by rw [m2]; rfl)
  have xf : ∀ b, (w'.phys b).xf = (w.phys b).xf := fun b => (call_kept (xf_unmoving (w.phys b).xf) c (fun _ _ _ => trivial) hs
    (fun d h => h1 ⟨d, h⟩) (fun b p a h => h2 ⟨b, p, a, h⟩) (fun o h => h3 ⟨o, h⟩) e).1 b rfl
  have go : ∀ {N : Nat × Nat → AABB F → Prop} {D : Nat → Nat → Prop} {T : Nat → Prop}, Carry N D T w w' →
    (∀ d a, Live w'.g d.1 d.2 → N d a → Fit w' d a ∨ Fit w d a ∧ ∃ b ∈ w.g.bodyList, (w.g.fixtures d.1).body = some b) → AllCovered w' :=
    fun k hN => hc.still hw h' k (fun b _ _ => xf b) hN
  have same : w'.g = w.g → w'.bp = w.bp → AllCovered w' := fun k1 k2 b hb f hf i hl => by
    rw [k1] at hb hf hl
    have := hc b hb f hf i hl
    unfold CoversAt at this ⊢
    rw [k1, k2, xf]
    exact this
  cases c with
  | createBody d => exact absurd ⟨d, rfl⟩ h1
  | setTransform b p a => exact absurd ⟨b, p, a, rfl⟩ h2
  | shiftOrigin o => exact absurd ⟨o, rfl⟩ h3
  | step dt vi pi => exact absurd rfl (hs dt vi pi)
  | destroyBody b =>
    obtain ⟨-, d⟩ := destroyBody_spec hw hok e
    exact go (d.carry (fun _ _ => True)) (fun _ _ _ k => k.elim)
  | createFixture b d =>
    simp only [Call.run, Option.map_eq_some_iff] at e
    obtain ⟨⟨v, f⟩, e, rfl⟩ := e
    obtain ⟨-, -, -, -, -, k1, k2, k3, k⟩ := createFixture_spec' (env := env) hw hok e
    refine go (k (fun _ _ => True)) fun d' a hl hN => .inl ⟨b, ?_, ?_⟩
    · rw [hN.1]
      exact ((h'.body.fixtures b f).mp (by rw [k1]; exact List.mem_cons_self)).2
    · dsimp only at k3 xf ⊢
      rw [hN.1, k3, xf]; exact hN.2
  | destroyFixture b f =>
    obtain ⟨-, -, -, -, -, -, -, -, k⟩ := destroyFixture_spec' hw hok e
    exact go (k (fun _ _ => True)) (fun _ _ _ k => k.elim)
  | createJoint d =>
    simp only [Call.run, Option.map_eq_some_iff] at e
    obtain ⟨⟨v, j⟩, e, rfl⟩ := e
    exact go (createJoint_carry (N := fun _ _ => False) (D := fun _ _ => True) h.toGInv hok.1 hok.2 e) (fun _ _ _ k => k.elim)
  | destroyJoint j => exact go (destroyJoint_carry (N := fun _ _ => False) (D := fun _ _ => True) h.toGInv h.unlocked hok (fun _ => trivial) e) (fun _ _ _ k => k.elim)
  | setType b t =>
    obtain ⟨-, -, -, -, -, k1, k2, -, T, k⟩ := setType_spec' hw e
    refine go (k (fun _ _ => True)) fun d a hl hN => ?_
    obtain ⟨b', hb', -, hf, -⟩ := hl
    rw [k1] at hb'
    rw [k2] at hf
    exact .inr ⟨hN, b', hb', hf⟩
  | setEnabled b flag =>
    cases flag with
    | true =>
      obtain ⟨-, -, -, -, -, k1, k2, -, k⟩ := setEnabled_true_spec' hw hok e
      refine go (k (fun _ _ => True)) fun d a hl hN => ?_
      obtain ⟨b', hb', -, hf, -⟩ := hl
      rw [k1] at hb'
      rw [k2] at hf
      exact .inr ⟨hN, b', hb', hf⟩
    | false =>
      obtain ⟨-, -, -, -, -, -, -, -, -, k⟩ := setEnabled_false_spec' hw hok e
      exact go (k (fun _ _ => True)) (fun _ _ _ k => k.elim)
  | setMassData b m =>
    obtain ⟨-, h1, -⟩ := setMassData_spec (env := env) e
    exact go (h1.toWFrame.carry (N := fun _ _ => False) (D := fun _ _ => True)) (fun _ _ _ k => k.elim)
  | setFilterData f d =>
    obtain ⟨b, hb, hf⟩ := hok
    obtain ⟨-, -, -, -, -, k⟩ := setFilterData_spec (env := env) hw hb hf e
    exact go (k (fun _ _ => True)) (fun _ _ _ k => k.elim)
  | refilter f =>
    obtain ⟨b, hb, hf⟩ := hok
    obtain ⟨-, -, -, -, -, k⟩ := refilter_spec (env := env) hw hb hf e
    exact go (k (fun _ _ => True)) (fun _ _ _ k => k.elim)
  | user op =>
    obtain ⟨q, hl⟩ := userOp_quiet e
    exact go (q.toWFrame.carry (N := fun _ _ => False) (D := fun _ _ => True)) (fun _ _ _ k => k.elim)
  | setAllowSleeping flag =>
    cases e
    by_cases hx : flag = w.allowSleep
    · have : w.setAllowSleeping flag = w := by unfold setAllowSleeping; rw [if_pos hx]
      rw [this]; exact hc
    refine same ?_ ?_
    · unfold setAllowSleeping
      rw [if_neg hx]
      dsimp only
      split
      · exact foldl_inv (fun x : World F => x.g = w.g) rfl (fun _ _ _ h => h)
      · rfl
    · unfold setAllowSleeping
      rw [if_neg hx]
      dsimp only
      split
      · exact foldl_inv (fun x : World F => x.bp = w.bp) rfl (fun _ _ _ h => h)
      · rfl
  | clearForces =>
    cases e
    exact same (clearForcesAll_graph w) (foldl_inv (fun x : World F => x.bp = w.bp) rfl (fun _ _ _ h => h))
  | _ => cases e; exact same rfl rfl

end
end B2
