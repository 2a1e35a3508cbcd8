import Verif.Proofs.WorldBody
import Verif.Spec.Serialize

/-! Loading: what each call does to the world, and what is there in the end. -/
namespace B2
set_option linter.unusedSectionVars false
open World Spec

section
variable {F P : Type} [Field F] [LinearOrder F] [IsStrictOrderedRing F] [Elem F]

/-! ## Numbering -/

theorem foldl_number {α β : Type} (h : α → Nat → α) : ∀ (l : List Nat) (k : Nat) (ph : Nat → α), l.Nodup → ∀ b,
    (l.zipIdx k).foldl (fun ph x => upd ph x.1 (h (ph x.1) x.2)) ph b = if b ∈ l then h (ph b) (k + l.idxOf b) else ph b := by
  intro l
  induction l with
  | nil => intro k ph _ b; simp
  | cons a l ih =>
    intro k ph hn b
    rw [List.zipIdx_cons, List.foldl_cons, ih (k + 1) _ (List.nodup_cons.mp hn).2 b]
    by_cases hb : b = a
    · subst hb
      rw [if_neg (List.nodup_cons.mp hn).1, if_pos (by simp)]
      simp
    · rw [upd_other _ _ hb]
      by_cases hm : b ∈ l
      · rw [if_pos hm, if_pos (List.mem_cons_of_mem _ hm), List.idxOf_cons_ne _ (Ne.symm hb)]
        congr 1; omega
      · rw [if_neg hm, if_neg (by simp [hb, hm])]

theorem number_island {w : World F} (hn : w.g.bodyList.Nodup) {b : Nat} (hb : b ∈ w.g.bodyList) :
    (w.numberBodies.phys b).islandIndex = (w.g.bodyList.idxOf b : Int) := by
  have h := foldl_number (β := Unit) (fun (p : Phys F) i => { p with islandIndex := (i : Int) }) w.g.bodyList 0 w.phys hn b
  rw [if_pos hb] at h
  unfold numberBodies
  dsimp only
  rw [h]
  simp

/-! ## Fixtures -/

/-- Creating proxies of fixture `f` changes nothing but its proxies and the broad-phase. -/
structure ProxyOnly (f : Nat) (w w' : World F) : Prop where
  eq : w' = { w with g := { w.g with fixtures := w'.g.fixtures }, bp := w'.bp, paabb := w'.paabb }
  other : ∀ x, x ≠ f → w'.g.fixtures x = w.g.fixtures x
  shape : (w'.g.fixtures f).shape = (w.g.fixtures f).shape

theorem ProxyOnly.trans {f : Nat} {w w' w'' : World F} (h : ProxyOnly f w w') (h' : ProxyOnly f w' w'') : ProxyOnly f w w'' :=
  ⟨by rw [h'.eq, h.eq], fun x hx => (h'.other x hx).trans (h.other x hx), h'.shape.trans h.shape⟩

theorem createProxies_only {w w' : World F} {f : Nat} {xf : Xf F} (e : w.createProxies f xf = some w') : ProxyOnly f w w' := by
  unfold createProxies at e
  dsimp only at e
  split at e
  · cases e
  simp only [Option.bind_eq_bind, Option.bind_eq_some_iff] at e
  obtain ⟨n, -, e⟩ := e
  have h0 : ProxyOnly f w (w.setFix f { w.g.fixtures f with proxyCount := n }) :=
    ⟨rfl, fun x hx => upd_other _ _ hx, by unfold World.setFix; dsimp only; rw [upd_same]⟩
  refine foldlM_inv (fun v => ProxyOnly f w v) e h0 ?_
  intro i _ v v' hv e1
  refine hv.trans ?_
  unfold createProxy at e1
  simp only [Option.bind_eq_bind, Option.bind_eq_some_iff] at e1
  obtain ⟨_, -, aabb, -, ⟨bp, id⟩, -, e1⟩ := e1
  cases e1
  exact ⟨rfl, fun x hx => upd_other _ _ hx, by unfold World.setFix; dsimp only; rw [upd_same]⟩

/-- What `create_fixture` does. -/
structure WithFixture (w w' : World F) (b f : Nat) (d : FixDef F) : Prop where
  unlocked : w.locked = false
  eq : w' = { w with g := { w.g with bodies := w'.g.bodies, fixtures := w'.g.fixtures, nextFixture := w.g.nextFixture + 1 },
                     bp := w'.bp, paabb := w'.paabb, fattr := w'.fattr, phys := w'.phys, newContacts := true }
  id : f = w.g.nextFixture
  bodies : ∀ x, x ≠ b → w'.g.bodies x = w.g.bodies x
  body : w'.g.bodies b = { w.g.bodies b with fixtures := f :: (w.g.bodies b).fixtures, fixtureCount := (w.g.bodies b).fixtureCount + 1 }
  fixtures : ∀ x, x ≠ f → w'.g.fixtures x = w.g.fixtures x
  attrs : ∀ x, x ≠ f → w'.fattr x = w.fattr x
  shape : (w'.g.fixtures f).shape = d.shape
  attr : w'.fattr f = d.attr
  others : ∀ x, x ≠ b → w'.phys x = w.phys x
  phys : (d.attr.density > 0 ∧ Phys.resetMassData (w.typeOf b) (w'.massList b) (w.phys b) = some (w'.phys b)) ∨
    (¬ d.attr.density > 0 ∧ w'.phys b = w.phys b)

theorem createFixture_fixed {w w' : World F} {b f : Nat} {d : FixDef F} (e : w.createFixture b d = some (w', f)) : WithFixture w w' b f d := by
  unfold createFixture at e
  split at e
  · cases e
  rename_i hl
  simp only [Option.bind_eq_bind, Option.bind_eq_some_iff] at e
  obtain ⟨n, -, w1, e1, w2, e2, e3⟩ := e
  obtain ⟨rfl, rfl⟩ := Prod.mk.inj (Option.some.inj e3)
  have h1 : ProxyOnly w.g.nextFixture { w with
      g := { w.g with fixtures := upd w.g.fixtures w.g.nextFixture ⟨some b, d.shape, List.replicate n ⟨none, 0, none⟩, 0⟩
                      nextFixture := w.g.nextFixture + 1 }
      fattr := upd w.fattr w.g.nextFixture d.attr } w1 := by
    split at e1
    · exact createProxies_only e1
    · cases e1; exact ⟨rfl, fun _ _ => rfl, rfl⟩
  clear e1
  set f := w.g.nextFixture with hf
  have hb1 : w1.g.bodies = w.g.bodies := by rw [h1.eq]
  have hp1 : w1.phys = w.phys := by rw [h1.eq]
  have ha1 : w1.fattr = upd w.fattr f d.attr := by rw [h1.eq]
  have hfx : ∀ x, x ≠ f → w1.g.fixtures x = w.g.fixtures x := fun x hx => (h1.other x hx).trans (upd_other _ _ hx)
  have hfs : (w1.g.fixtures f).shape = d.shape := by rw [h1.shape]; dsimp only; rw [upd_same]
  set w1' := w1.setBody b { w1.g.bodies b with
      fixtures := f :: (w1.g.bodies b).fixtures, fixtureCount := (w1.g.bodies b).fixtureCount + 1 } with hw1'
  have hbo : ∀ x, x ≠ b → w1'.g.bodies x = w.g.bodies x := fun x hx => (upd_other _ _ hx).trans (by rw [hb1])
  have hbs : w1'.g.bodies b = { w.g.bodies b with fixtures := f :: (w.g.bodies b).fixtures, fixtureCount := (w.g.bodies b).fixtureCount + 1 } := by
    have : w1'.g.bodies b = { w1.g.bodies b with fixtures := f :: (w1.g.bodies b).fixtures, fixtureCount := (w1.g.bodies b).fixtureCount + 1 } := upd_same _ _ _
    rw [this, hb1]
  have hty : w1'.typeOf b = w.typeOf b := by unfold World.typeOf; rw [hbs]
  have heq : w1' = { w with g := { w.g with bodies := w1'.g.bodies, fixtures := w1'.g.fixtures, nextFixture := w.g.nextFixture + 1 },
                             bp := w1'.bp, paabb := w1'.paabb, fattr := w1'.fattr } := by
    have : w1' = { w1 with g := { w1.g with bodies := w1'.g.bodies } } := rfl
    rw [this, h1.eq]
  have hfx' : w1'.g.fixtures = w1.g.fixtures := rfl
  have hpp : w1'.phys = w.phys := hp1
  have haa : w1'.fattr = upd w.fattr f d.attr := ha1
  clear_value w1'
  have hl' : w.locked = false := by simpa using hl
  split at e2
  · rename_i hd
    unfold resetMassData bodyOp at e2
    simp only [Option.bind_eq_bind, Option.bind_eq_some_iff] at e2
    obtain ⟨p, e2, e4⟩ := e2
    cases e4
    refine ⟨hl', ?_, rfl, hbo, hbs, fun x hx => by show w1'.g.fixtures x = _; rw [hfx', hfx x hx], fun x hx => ?_, ?_, ?_, fun x hx => ?_, Or.inl ⟨hd, ?_⟩⟩
    · have : (w1'.setPhys b p) = { w1' with phys := (w1'.setPhys b p).phys } := rfl
      rw [this, heq]
    · show w1'.fattr x = _; rw [haa, upd_other _ _ hx]
    · show (w1'.g.fixtures f).shape = _; rw [hfx', hfs]
    · show w1'.fattr f = _; rw [haa, upd_same]
    · show (w1'.setPhys b p).phys x = _; unfold World.setPhys; dsimp only; rw [upd_other _ _ hx, hpp]
    · have h4 : ({ w1'.setPhys b p with newContacts := true } : World F).phys b = p := by unfold World.setPhys; dsimp only; rw [upd_same]
      rw [h4, ← hty, ← hpp]
      exact e2
  · rename_i hd
    cases e2
    refine ⟨hl', ?_, rfl, hbo, hbs, fun x hx => by show w2.g.fixtures x = _; rw [hfx', hfx x hx], fun x hx => ?_, ?_, ?_, fun x hx => ?_, Or.inr ⟨hd, ?_⟩⟩
    · rw [show ({ w2 with newContacts := true } : World F) = { w2 with phys := w.phys, newContacts := true } by rw [← hpp], heq]
    · show w2.fattr x = _; rw [haa, upd_other _ _ hx]
    · show (w2.g.fixtures f).shape = _; rw [hfx', hfs]
    · show w2.fattr f = _; rw [haa, upd_same]
    · show w2.phys x = _; rw [hpp]
    · show w2.phys b = _; rw [hpp]

/-! ## Mass data -/

/-- What is true of the numbers of a body being loaded. -/
structure Derived (d : BodyDef F) (q : Phys F) : Prop where
  xf : q.xf = ⟨d.position, Rot.ofAngle d.angle⟩
  a : q.sweep.a = d.angle
  w : q.w = d.angularVelocity
  linearDamping : q.linearDamping = d.linearDamping
  angularDamping : q.angularDamping = d.angularDamping
  gravityScale : q.gravityScale = d.gravityScale
  autoSleep : q.autoSleep = d.allowSleep
  bullet : q.bullet = d.bullet
  fixedRotation : q.fixedRotation = d.fixedRotation
  awake : q.awake = (d.awake && decide (d.type ≠ .static))
  v : q.v = d.linearVelocity + crossSV d.angularVelocity (q.sweep.c - d.position)
  still : d.type ≠ .dynamic → q.sweep.c = d.position

theorem cross_add (s : F) (v a b c : Vec2 F) : v + crossSV s (a - b) + crossSV s (c - a) = v + crossSV s (c - b) := by
  unfold crossSV
  ext <;> simp <;> ring

theorem cross_zero (s : F) (v a : Vec2 F) : v + crossSV s (a - a) = v := by
  unfold crossSV
  ext <;> simp

theorem new_derived {d : BodyDef F} {p : Phys F} (e : Phys.new d = some p) : Derived d p := by
  unfold Phys.new at e
  split at e
  · cases e
    exact ⟨rfl, rfl, rfl, rfl, rfl, rfl, rfl, rfl, rfl, rfl, (cross_zero _ _ _).symm, fun _ => rfl⟩
  · cases e

/-- The two branches of `reset_mass_data`. -/
theorem reset_cases {t : BodyType} {fs : List (F × Shape F)} {p q : Phys F} (e : Phys.resetMassData t fs p = some q) :
    (t ≠ .dynamic ∧ q = { p with mass := 0, invMass := 0, i := 0, invI := 0, sweep := { p.sweep with localCenter := ⟨0, 0⟩, c0 := p.xf.p, c := p.xf.p, a0 := p.sweep.a } }) ∨
    (t = .dynamic ∧ ∃ m im i ii center, q = Phys.moveCenter { p with mass := m, invMass := im, i := i, invI := ii, sweep := { p.sweep with localCenter := ⟨0, 0⟩ } } center ∧
      ∀ p' : Phys F, p'.fixedRotation = p.fixedRotation → Phys.resetMassData t fs p' =
        some (Phys.moveCenter { p' with mass := m, invMass := im, i := i, invI := ii, sweep := { p'.sweep with localCenter := ⟨0, 0⟩ } } center)) := by
  unfold Phys.resetMassData at e
  dsimp only at e
  split at e
  · rename_i ht
    cases e
    exact Or.inl ⟨by rcases ht with h | h <;> rw [h] <;> exact fun h => (by cases h), rfl⟩
  · rename_i ht
    refine Or.inr ⟨by cases t <;> simp at ht ⊢, ?_⟩
    simp only [Option.bind_eq_bind, Option.bind_eq_some_iff] at e
    obtain ⟨acc, e1, e⟩ := e
    generalize him : (if acc.mass > 0 then 1 / acc.mass else 0) = im at e
    generalize hce : (if acc.mass > 0 then im * acc.center else acc.center) = ce at e
    split at e
    · rename_i h1
      split at e
      · rename_i h2
        refine ⟨_, _, _, _, _, (Option.some.inj e).symm, fun p' hf => ?_⟩
        unfold Phys.resetMassData
        dsimp only
        rw [if_neg ht, e1, hf]
        simp only [Option.bind_eq_bind, Option.bind_some]
        rw [him, hce, if_pos h1, if_pos h2]
      · cases e
    · rename_i h1
      refine ⟨_, _, _, _, _, (Option.some.inj e).symm, fun p' hf => ?_⟩
      unfold Phys.resetMassData
      dsimp only
      rw [if_neg ht, e1, hf]
      simp only [Option.bind_eq_bind, Option.bind_some]
      rw [him, hce, if_neg h1]

theorem reset_derived {d : BodyDef F} {fs : List (F × Shape F)} {p q : Phys F} (h : Derived d p) (e : Phys.resetMassData d.type fs p = some q) : Derived d q := by
  rcases reset_cases e with ⟨ht, rfl⟩ | ⟨ht, m, im, i, ii, c, rfl, -⟩
  · refine ⟨h.xf, h.a, h.w, h.linearDamping, h.angularDamping, h.gravityScale, h.autoSleep, h.bullet, h.fixedRotation, h.awake, ?_, fun _ => ?_⟩
    · dsimp only; rw [h.xf, h.v, h.still ht]
    · dsimp only; rw [h.xf]
  · refine ⟨h.xf, h.a, h.w, h.linearDamping, h.angularDamping, h.gravityScale, h.autoSleep, h.bullet, h.fixedRotation, h.awake, ?_, fun h' => absurd ht h'⟩
    unfold Phys.moveCenter
    dsimp only
    rw [h.v, h.w, cross_add]

/-- Resetting again forgets the first result. -/
theorem reset_reset {t : BodyType} {fs gs : List (F × Shape F)} {p q r : Phys F} (e : Phys.resetMassData t fs p = some q)
    (e2 : Phys.resetMassData t gs q = some r) : Phys.resetMassData t gs p = some r := by
  rcases reset_cases e with ⟨ht, rfl⟩ | ⟨ht, m, im, i, ii, c, rfl, -⟩
  · rcases reset_cases e2 with ⟨-, rfl⟩ | ⟨h, -⟩
    · unfold Phys.resetMassData
      dsimp only
      rw [if_pos (by cases t <;> simp at ht ⊢)]
    · exact absurd h ht
  · rcases reset_cases e2 with ⟨h, -⟩ | ⟨-, m, im, i, ii, c, rfl, h⟩
    · exact absurd ht h
    · rw [h p rfl]
      unfold Phys.moveCenter
      dsimp only
      rw [cross_add]

theorem reset_same {t : BodyType} {fs : List (F × Shape F)} {p q p' q' : Phys F} (e : Phys.resetMassData t fs p = some q)
    (e' : Phys.resetMassData t fs p' = some q') (hx : p.xf = p'.xf) (hf : p.fixedRotation = p'.fixedRotation) :
    q.mass = q'.mass ∧ q.invMass = q'.invMass ∧ q.i = q'.i ∧ q.invI = q'.invI ∧ q.sweep.localCenter = q'.sweep.localCenter ∧ q.sweep.c = q'.sweep.c := by
  rcases reset_cases e with ⟨ht, rfl⟩ | ⟨ht, m, im, i, ii, c, rfl, h⟩
  · rcases reset_cases e' with ⟨-, rfl⟩ | ⟨h, -⟩
    · exact ⟨rfl, rfl, rfl, rfl, rfl, by dsimp only; rw [hx]⟩
    · exact absurd h ht
  · rw [h p' hf.symm] at e'
    rw [← Option.some.inj e']
    exact ⟨rfl, rfl, rfl, rfl, rfl, by unfold Phys.moveCenter; dsimp only; rw [hx]⟩

theorem massLoop_swap (a b : F × Shape F) (l : List (F × Shape F)) (acc : MassData F) : massLoop (a :: b :: l) acc = massLoop (b :: a :: l) acc := by
  obtain ⟨da, sa⟩ := a
  obtain ⟨db, sb⟩ := b
  simp only [massLoop]
  by_cases ha : da = 0
  · simp [ha]
  · by_cases hb : db = 0
    · simp [hb]
    · simp only [if_neg ha, if_neg hb, Option.bind_eq_bind]
      cases sa.computeMass da with
      | none => cases sb.computeMass db <;> rfl
      | some x =>
        cases sb.computeMass db with
        | none => rfl
        | some y =>
          simp only [Option.bind_some]
          congr 1
          simp only [MassData.mk.injEq]
          refine ⟨by ring, ?_, by ring⟩
          ext <;> simp <;> ring

theorem massLoop_perm {l l' : List (F × Shape F)} (h : l.Perm l') : ∀ acc, massLoop l acc = massLoop l' acc := by
  induction h with
  | nil => intro; rfl
  | cons x _ ih =>
    intro acc
    obtain ⟨d, s⟩ := x
    simp only [massLoop]
    split
    · exact ih acc
    · cases s.computeMass d with
      | none => rfl
      | some m => exact ih _
  | swap x y l => intro acc; exact massLoop_swap _ _ _ _
  | trans _ _ h1 h2 => intro acc; rw [h1, h2]

theorem reset_perm {l l' : List (F × Shape F)} (h : l.Perm l') (t : BodyType) (p : Phys F) : Phys.resetMassData t l p = Phys.resetMassData t l' p := by
  unfold Phys.resetMassData
  simp only [massLoop_perm h]

theorem reset_zero (t : BodyType) (s : Shape F) (l : List (F × Shape F)) (p : Phys F) : Phys.resetMassData t ((0, s) :: l) p = Phys.resetMassData t l p := by
  unfold Phys.resetMassData
  simp only [massLoop, if_true]

theorem reset_new {d : BodyDef F} {p : Phys F} (e : Phys.new d = some p) : Phys.resetMassData d.type [] p = some p := by
  unfold Phys.new at e
  split at e
  · cases e
    unfold Phys.resetMassData
    dsimp only
    split
    · rfl
    · simp only [massLoop, Option.bind_eq_bind, Option.bind_some, lt_irrefl, if_false, false_and, gt_iff_lt]
      unfold Phys.moveCenter
      dsimp only
      have hc : (⟨d.position, Rot.ofAngle d.angle⟩ : Xf F).mulV ⟨0, 0⟩ = d.position := by
        unfold Xf.mulV; ext <;> simp
      rw [hc, cross_zero]
  · cases e

/-- The mass data is that of the fixtures `fs`, set when the body was as its definition says. -/
def ResetOf (d : BodyDef F) (fs : List (F × Shape F)) (q : Phys F) : Prop := ∃ p, Phys.new d = some p ∧ Phys.resetMassData d.type fs p = some q

/-! ## Bodies -/

/-- Body `b` of `w` is what the definition says. -/
structure IsBody (w : World F) (b : Nat) (s : SavedBody F) : Prop where
  type : w.typeOf b = s.defn.type
  enabled : (w.g.bodies b).enabled = s.defn.enabled
  fixtures : (w.g.bodies b).fixtures.map w.fixDef = s.fixtures.reverse
  derived : Derived s.defn (w.phys b)
  mass : (∀ d ∈ s.fixtures, 0 ≤ d.attr.density) → ResetOf s.defn (w.massList b) (w.phys b)

/-- Fixtures in use have been created. -/
def Old (w : World F) : Prop := ∀ b, ∀ f ∈ (w.g.bodies b).fixtures, f < w.g.nextFixture

theorem IsBody.frame {w w' : World F} {b : Nat} {s : SavedBody F} (h : IsBody w b s) (hb : w'.g.bodies b = w.g.bodies b) (hp : w'.phys b = w.phys b)
    (hf : ∀ f ∈ (w.g.bodies b).fixtures, w'.g.fixtures f = w.g.fixtures f ∧ w'.fattr f = w.fattr f) : IsBody w' b s := by
  have h1 : (w.g.bodies b).fixtures.map w'.fixDef = (w.g.bodies b).fixtures.map w.fixDef :=
    List.map_congr_left fun f hx => by unfold World.fixDef; rw [(hf f hx).1, (hf f hx).2]
  have h2 : w'.massList b = w.massList b := by
    unfold World.massList; rw [hb]
    exact List.map_congr_left fun f hx => by rw [(hf f hx).1, (hf f hx).2]
  exact ⟨by unfold World.typeOf; rw [hb]; exact h.type, by rw [hb]; exact h.enabled, by rw [hb, h1]; exact h.fixtures, by rw [hp]; exact h.derived,
    fun hd => by rw [hp, h2]; exact h.mass hd⟩

/-- Nothing but body `b` and fixtures from `n` on have changed. -/
structure Only (b n : Nat) (w w' : World F) : Prop where
  eq : w' = { w with g := { w.g with bodies := w'.g.bodies, fixtures := w'.g.fixtures, nextFixture := w'.g.nextFixture },
                     bp := w'.bp, paabb := w'.paabb, fattr := w'.fattr, phys := w'.phys, newContacts := w'.newContacts }
  bodies : ∀ x, x ≠ b → w'.g.bodies x = w.g.bodies x
  others : ∀ x, x ≠ b → w'.phys x = w.phys x
  fixtures : ∀ x, x < n → w'.g.fixtures x = w.g.fixtures x
  attrs : ∀ x, x < n → w'.fattr x = w.fattr x

theorem Only.trans {b n : Nat} {w w' w'' : World F} (h : Only b n w w') (h' : Only b n w' w'') : Only b n w w'' :=
  ⟨by rw [h'.eq, h.eq], fun x hx => (h'.bodies x hx).trans (h.bodies x hx), fun x hx => (h'.others x hx).trans (h.others x hx),
    fun x hx => (h'.fixtures x hx).trans (h.fixtures x hx), fun x hx => (h'.attrs x hx).trans (h.attrs x hx)⟩

theorem fixture_body {w w' : World F} {b f : Nat} {d : FixDef F} {s : SavedBody F} (ho : Old w) (hs : IsBody w b s) (e : w.createFixture b d = some (w', f)) :
    IsBody w' b ⟨s.defn, s.fixtures ++ [d]⟩ ∧ Old w' ∧ ∀ n, n ≤ w.g.nextFixture → Only b n w w' := by
  have h := createFixture_fixed e
  have hne : ∀ x ∈ (w.g.bodies b).fixtures, x ≠ f := fun x hx he => by
    have := ho b x hx
    rw [he, h.id] at this
    exact lt_irrefl _ this
  have hfd : w'.fixDef f = d := by unfold World.fixDef; rw [h.shape, h.attr]
  have hml : w'.massList b = (d.attr.density, d.shape) :: w.massList b := by
    unfold World.massList
    rw [h.body]
    simp only [List.map_cons, h.shape, h.attr]
    congr 1
    exact List.map_congr_left fun x hx => by rw [h.fixtures x (hne x hx), h.attrs x (hne x hx)]
  have hn : w'.g.nextFixture = w.g.nextFixture + 1 := by rw [h.eq]
  refine ⟨⟨?_, ?_, ?_, ?_, fun hd => ?_⟩, fun x y hy => ?_, fun n hn => ⟨?_, h.bodies, h.others, fun x hx => h.fixtures x ?_, fun x hx => h.attrs x ?_⟩⟩
  · unfold World.typeOf; rw [h.body]; exact hs.type
  · rw [h.body]; exact hs.enabled
  · rw [h.body]
    simp only [List.map_cons, List.reverse_append, List.reverse_cons, List.reverse_nil, List.nil_append, List.singleton_append, hfd]
    rw [← hs.fixtures]
    congr 1
    exact List.map_congr_left fun x hx => by unfold World.fixDef; rw [h.fixtures x (hne x hx), h.attrs x (hne x hx)]
  · rcases h.phys with ⟨-, hr⟩ | ⟨-, hr⟩
    · rw [hs.type] at hr
      exact reset_derived hs.derived hr
    · rw [hr]; exact hs.derived
  · dsimp only at hd ⊢
    obtain ⟨p, hp, hq⟩ := hs.mass fun x hx => hd x (List.mem_append_left _ hx)
    refine ⟨p, hp, ?_⟩
    rcases h.phys with ⟨-, hr⟩ | ⟨hz, hr⟩
    · rw [hs.type] at hr
      exact reset_reset hq hr
    · have h0 : d.attr.density = 0 := le_antisymm (not_lt.mp hz) (hd d (by simp))
      rw [hr, hml, h0, reset_zero]
      exact hq
  · by_cases hx : x = b
    · subst hx
      rw [h.body] at hy
      rcases List.mem_cons.mp hy with rfl | hy
      · rw [hn, h.id]; exact Nat.lt_succ_self _
      · rw [hn]; exact Nat.lt_succ_of_lt (ho x y hy)
    · rw [h.bodies x hx] at hy
      rw [hn]; exact Nat.lt_succ_of_lt (ho x y hy)
  · rw [h.eq]
  · have := h.id; omega
  · have := h.id; omega

theorem fixtures_body {b : Nat} : ∀ (l : List (FixDef F)) {w w' : World F} {s : SavedBody F} {n : Nat}, Old w → IsBody w b s → n ≤ w.g.nextFixture →
    l.foldlM (fun w d => (w.createFixture b d).map Prod.fst) w = some w' → IsBody w' b ⟨s.defn, s.fixtures ++ l⟩ ∧ Old w' ∧ Only b n w w' := by
  intro l
  induction l with
  | nil =>
    intro w w' s n ho hs hn e
    cases e
    exact ⟨by rw [List.append_nil]; exact hs, ho, rfl, fun _ _ => rfl, fun _ _ => rfl, fun _ _ => rfl, fun _ _ => rfl⟩
  | cons d l ih =>
    intro w w' s n ho hs hn e
    rw [List.foldlM_cons] at e
    simp only [Option.bind_eq_bind, Option.bind_eq_some_iff, Option.map_eq_some_iff, Prod.exists] at e
    obtain ⟨w1, ⟨w1', f, e1, rfl⟩, e2⟩ := e
    obtain ⟨a1, a2, a3⟩ := fixture_body ho hs e1
    have hle : n ≤ w1'.g.nextFixture := by
      have : w1'.g.nextFixture = w.g.nextFixture + 1 := by rw [(createFixture_fixed e1).eq]
      omega
    obtain ⟨b1, b2, b3⟩ := ih a2 a1 hle e2
    exact ⟨by simpa using b1, b2, (a3 n hn).trans b3⟩

/-- What `create_body` does. -/
theorem createBody_cases {w w' : World F} {d : BodyDef F} {b : Nat} (e : w.createBody d = some (w', b)) :
    b = w.g.nextBody ∧ w.locked = false ∧ ∃ p, Phys.new d = some p ∧ w' = { w with
      g := { w.g with bodies := upd w.g.bodies b ⟨d.type, d.enabled, [], 0, [], []⟩, nextBody := b + 1
                      bodyList := b :: w.g.bodyList, bodyCount := w.g.bodyCount + 1 }
      phys := upd w.phys b p } := by
  unfold createBody at e
  split at e
  · cases e
  rename_i hl
  simp only [Option.bind_eq_bind, Option.bind_eq_some_iff] at e
  obtain ⟨p, e1, e2⟩ := e
  obtain ⟨h1, rfl⟩ := Prod.mk.inj (Option.some.inj e2)
  exact ⟨rfl, by simpa using hl, p, e1, h1.symm⟩

/-- What has been loaded when the bodies `l` have been read. -/
structure Loaded (env : Env F) (gravity : Vec2 F) (l : List (SavedBody F)) (w : World F) : Prop where
  hist : WHist env w
  list : w.g.bodyList = (List.range l.length).reverse
  next : w.g.nextBody = l.length
  joints : w.g.jointList = []
  nextJoint : w.g.nextJoint = 0
  gravity : w.gravity = gravity
  old : Old w
  body : ∀ i s, l[i]? = some s → IsBody w i s

theorem loadBody_loaded {env : Env F} {g : Vec2 F} {l : List (SavedBody F)} {w w' : World F} {s : SavedBody F} (h : Loaded env g l w)
    (e : w.loadBody s = some w') : Loaded env g (l ++ [s]) w' := by
  unfold loadBody at e
  simp only [Option.bind_eq_bind, Option.bind_eq_some_iff, Prod.exists] at e
  obtain ⟨w1, b, e1, e2⟩ := e
  have hh1 : WHist env w1 := .call (.createBody s.defn) h.hist trivial (by simp only [Call.run, e1, Option.map_some])
  have hbl : b ∈ w1.g.bodyList := by
    obtain ⟨-, -, p, -, rfl⟩ := createBody_cases e1
    exact List.mem_cons_self
  have hh2 : WHist env w' ∧ b ∈ w'.g.bodyList := by
    refine foldlM_inv (fun v : World F => WHist env v ∧ b ∈ v.g.bodyList) e2 ⟨hh1, hbl⟩ ?_
    rintro d _ v v' ⟨hv, hm⟩ e
    refine ⟨.call (.createFixture b d) hv hm e, ?_⟩
    simp only [Option.map_eq_some_iff, Prod.exists] at e
    obtain ⟨v1, f, e, rfl⟩ := e
    rw [(createFixture_fixed e).eq]
    exact hm
  obtain ⟨rfl, -, p, hp, rfl⟩ := createBody_cases e1
  have hb0 : w.g.nextBody = l.length := h.next
  have ho1 : Old { w with
      g := { w.g with bodies := upd w.g.bodies w.g.nextBody ⟨s.defn.type, s.defn.enabled, [], 0, [], []⟩, nextBody := w.g.nextBody + 1
                      bodyList := w.g.nextBody :: w.g.bodyList, bodyCount := w.g.bodyCount + 1 }
      phys := upd w.phys w.g.nextBody p } := by
    intro x f hf
    dsimp only at hf ⊢
    by_cases hx : x = w.g.nextBody
    · subst hx; rw [upd_same] at hf; cases hf
    · rw [upd_other _ _ hx] at hf; exact h.old x f hf
  have hs1 : IsBody { w with
      g := { w.g with bodies := upd w.g.bodies w.g.nextBody ⟨s.defn.type, s.defn.enabled, [], 0, [], []⟩, nextBody := w.g.nextBody + 1
                      bodyList := w.g.nextBody :: w.g.bodyList, bodyCount := w.g.bodyCount + 1 }
      phys := upd w.phys w.g.nextBody p } w.g.nextBody ⟨s.defn, []⟩ := by
    refine ⟨?_, ?_, ?_, ?_, fun _ => ⟨p, hp, ?_⟩⟩
    · unfold World.typeOf; dsimp only; rw [upd_same]
    · dsimp only; rw [upd_same]
    · dsimp only; rw [upd_same]; rfl
    · dsimp only; rw [upd_same]; exact new_derived hp
    · unfold World.massList; dsimp only; rw [upd_same, upd_same]; exact reset_new hp
  obtain ⟨a1, a2, a3⟩ := fixtures_body s.fixtures ho1 hs1 (le_refl _) e2
  dsimp only at a3
  refine ⟨hh2.1, ?_, ?_, ?_, ?_, ?_, a2, ?_⟩
  · rw [a3.eq]; dsimp only
    rw [h.list, hb0, List.length_append, List.length_singleton, List.range_succ, List.reverse_append]; rfl
  · rw [a3.eq]; dsimp only; rw [hb0]; simp
  · rw [a3.eq]; exact h.joints
  · rw [a3.eq]; exact h.nextJoint
  · rw [a3.eq]; exact h.gravity
  · intro i t hi
    rcases Nat.lt_or_ge i l.length with hlt | hge
    · rw [List.getElem?_append_left hlt] at hi
      have hi' := h.body i t hi
      have hne : i ≠ w.g.nextBody := by omega
      refine hi'.frame ((a3.bodies i hne).trans (upd_other _ _ hne)) ((a3.others i hne).trans (upd_other _ _ hne)) fun f hf => ?_
      have hlt := h.old i f hf
      exact ⟨a3.fixtures f hlt, a3.attrs f hlt⟩
    · rw [List.getElem?_append_right hge] at hi
      have h0 : i - l.length = 0 := by
        rcases Nat.eq_zero_or_pos (i - l.length) with h | h
        · exact h
        · rw [List.getElem?_eq_none (by rw [List.length_singleton]; omega)] at hi; cases hi
      rw [h0] at hi
      cases hi
      have : i = w.g.nextBody := by omega
      rw [this]
      simpa using a1

theorem loadBodies {env : Env F} {g : Vec2 F} : ∀ (l done : List (SavedBody F)) {w w' : World F}, Loaded env g done w →
    l.foldlM World.loadBody w = some w' → Loaded env g (done ++ l) w' := by
  intro l
  induction l with
  | nil => intro done w w' h e; cases e; rw [List.append_nil]; exact h
  | cons s l ih =>
    intro done w w' h e
    rw [List.foldlM_cons] at e
    simp only [Option.bind_eq_bind, Option.bind_eq_some_iff] at e
    obtain ⟨w1, e1, e2⟩ := e
    have := ih (done ++ [s]) (loadBody_loaded h e1) e2
    simpa using this

theorem loaded_empty (env : Env F) {e : Scene F P} (h : Empty e) (g : Vec2 F) : Loaded env g [] { e.world with gravity := g } := by
  obtain ⟨g0, a, b, c, d, f, h⟩ := h
  rw [h]
  refine ⟨.new g a b c d f, rfl, rfl, rfl, rfl, rfl, fun x y hy => ?_, fun i s hi => by simp at hi⟩
  cases hy

end
end B2
