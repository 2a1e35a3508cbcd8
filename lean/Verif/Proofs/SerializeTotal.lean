import Verif.Proofs.SerializeView
import Verif.Props.Body

/-! When loading does not panic. -/
namespace B2
set_option linter.unusedSectionVars false
open World Spec

section
variable {F P : Type} [Field F] [LinearOrder F] [IsStrictOrderedRing F] [Elem F]

/-- The mass of one part. -/
def Part (m : MassData F) : Prop := (m.mass = 0 ∧ m.i = 0) ∨ (0 < m.mass ∧ m.mass * (m.center.x ^ 2 + m.center.y ^ 2) < m.i)

theorem parts (ms : List (MassData F)) (h : ∀ m ∈ ms, Part m) :
    (totalMass ms = 0 ∧ momentX ms = 0 ∧ momentY ms = 0 ∧ inertia ms = 0) ∨
    (0 < totalMass ms ∧ momentX ms ^ 2 + momentY ms ^ 2 < totalMass ms * inertia ms) := by
  induction ms with
  | nil => exact Or.inl ⟨rfl, rfl, rfl, rfl⟩
  | cons m ms ih =>
    have ih := ih fun x hx => h x (List.mem_cons_of_mem _ hx)
    have hm := h m List.mem_cons_self
    have e1 : totalMass (m :: ms) = m.mass + totalMass ms := by simp [totalMass]
    have e2 : momentX (m :: ms) = m.mass * m.center.x + momentX ms := by simp [momentX]
    have e3 : momentY (m :: ms) = m.mass * m.center.y + momentY ms := by simp [momentY]
    have e4 : inertia (m :: ms) = m.i + inertia ms := by simp [inertia]
    rw [e1, e2, e3, e4]
    generalize totalMass ms = M at *
    generalize momentX ms = X at *
    generalize momentY ms = Y at *
    generalize inertia ms = I at *
    rcases hm with ⟨h1, h2⟩ | ⟨h1, h2⟩
    · rw [h1, h2]
      simpa using ih
    · right
      rcases ih with ⟨rfl, rfl, rfl, rfl⟩ | ⟨i1, i2⟩
      · refine ⟨by simpa using h1, ?_⟩
        nlinarith [mul_lt_mul_of_pos_left h2 h1]
      · refine ⟨by linarith, ?_⟩
        have hp : 0 < M * ((m.mass + M) * (m.i + I) - ((m.mass * m.center.x + X) ^ 2 + (m.mass * m.center.y + Y) ^ 2)) := by
          have a1 : 0 < m.mass * M * (m.i - m.mass * (m.center.x ^ 2 + m.center.y ^ 2)) := mul_pos (mul_pos h1 i1) (by linarith)
          have a2 : 0 < M * M * (m.i - m.mass * (m.center.x ^ 2 + m.center.y ^ 2)) := mul_pos (mul_pos i1 i1) (by linarith)
          have a3 : 0 < (m.mass + M) * (M * I - (X ^ 2 + Y ^ 2)) := mul_pos (by linarith) (by linarith)
          have a4 : 0 ≤ m.mass * ((X - M * m.center.x) ^ 2 + (Y - M * m.center.y) ^ 2) := mul_nonneg h1.le (by positivity)
          nlinarith
        have := (mul_pos_iff_of_pos_left i1).mp hp
        linarith

theorem solid_masses (fs : List (F × Shape F)) (h : ∀ x ∈ fs, Solid x) : ∃ ms, fs.mapM fixtureMass = some ms ∧ ∀ m ∈ ms, Part m := by
  induction fs with
  | nil => exact ⟨[], rfl, fun m hm => by cases hm⟩
  | cons x fs ih =>
    obtain ⟨ms, e, hms⟩ := ih fun y hy => h y (List.mem_cons_of_mem _ hy)
    obtain ⟨h0, hx⟩ := h x List.mem_cons_self
    have : ∃ m, fixtureMass x = some m ∧ Part m := by
      unfold fixtureMass
      rcases h0.eq_or_lt with h0 | h0
      · exact ⟨_, if_pos h0.symm, Or.inl ⟨rfl, rfl⟩⟩
      · rw [if_neg h0.ne']
        exact hx h0
    obtain ⟨m, e1, hm⟩ := this
    refine ⟨m :: ms, by simp [e1, e], fun y hy => ?_⟩
    rcases List.mem_cons.mp hy with rfl | hy
    · exact hm
    · exact hms y hy

theorem reset_total (t : BodyType) (fs : List (F × Shape F)) (p : Phys F) (h : ∀ x ∈ fs, Solid x) : ∃ q, Phys.resetMassData t fs p = some q := by
  by_cases ht : t = .dynamic
  · subst ht
    obtain ⟨ms, e, hms⟩ := solid_masses fs h
    refine Props.c56_total fs ms p e fun hi => ?_
    rcases parts ms hms with ⟨-, -, -, h0⟩ | h1
    · rw [h0] at hi; exact absurd hi (lt_irrefl _)
    · exact h1
  · unfold Phys.resetMassData
    dsimp only
    rw [if_pos (by cases t <;> simp at ht ⊢)]
    exact ⟨_, rfl⟩

theorem createFixture_total {w : World F} {b n : Nat} {d : FixDef F} (hw : WInv w) (hl : w.locked = false) (hb : b ∈ w.g.bodyList)
    (hn : d.shape.childCount = some n) (hm : ∀ x ∈ (d.attr.density, d.shape) :: w.massList b, Solid x) : ∃ r, w.createFixture b d = some r := by
  unfold createFixture
  rw [if_neg (by simp [hl]), hn]
  simp only [Option.bind_eq_bind, Option.bind_some]
  set f := w.g.nextFixture with hf
  set w1 : World F := { w with
      g := { w.g with fixtures := upd w.g.fixtures f ⟨some b, d.shape, List.replicate n ⟨none, 0, none⟩, 0⟩
                      nextFixture := f + 1 }
      fattr := upd w.fattr f d.attr } with hw1
  have hfo : ∀ x, x ≠ f → w1.g.fixtures x = w.g.fixtures x := fun x hx => upd_other _ _ hx
  have hfn : w1.g.fixtures f = ⟨some b, d.shape, List.replicate n ⟨none, 0, none⟩, 0⟩ := upd_same _ _ _
  have hno : ∀ x, (w.g.fixtures f).body ≠ some x := fun x hx => absurd (hw.body.owner f x hx).1 (lt_irrefl _)
  have hnl : ∀ i, ¬ Live w.g f i := fun i ⟨x, _, _, hx, _⟩ => hno x hx
  obtain ⟨gh, buf, rep, hpi⟩ := hw.prox
  have hpi1 : PI w1.g.fixtures w1.bp (Live w.g) gh buf rep := by
    refine ⟨hpi.hist, fun x i hx => ?_, fun id p hp => ?_⟩
    · rw [hfo x (by rintro rfl; exact hnl i hx)]
      exact hpi.has x i hx
    · obtain ⟨a1, a2⟩ := hpi.only id p hp
      refine ⟨a1, ?_⟩
      rw [hfo _ (by intro he; rw [he] at a1; exact hnl _ a1)]
      exact a2
  have e2 : ∃ w2, (if (w1.g.bodies b).enabled then w1.createProxies f (w1.phys b).xf else some w1) = some w2 ∧ ProxyOnly f w1 w2 := by
    split
    · obtain ⟨w2, -, -, k1, -⟩ := createProxies_spec (w1.phys b).xf hpi1 (by rw [hfn]; exact hn) (by rw [hfn]; simp) (by rw [hfn]) hnl (N := fun _ _ => True) (fun _ _ _ => trivial)
      exact ⟨w2, k1, createProxies_only k1⟩
    · exact ⟨w1, rfl, rfl, fun _ _ => rfl, rfl⟩
  obtain ⟨w2, e2, ho⟩ := e2
  rw [e2]
  simp only [Option.bind_some]
  split
  · have hm2 : (w2.setBody b { w2.g.bodies b with fixtures := f :: (w2.g.bodies b).fixtures, fixtureCount := (w2.g.bodies b).fixtureCount + 1 }).massList b
        = (d.attr.density, d.shape) :: w.massList b := by
      have hbod : w2.g.bodies = w.g.bodies := by rw [ho.eq]
      have hfat : w2.fattr = upd w.fattr f d.attr := by rw [ho.eq]
      unfold massList World.setBody
      dsimp only
      rw [upd_same, List.map_cons, hfat, upd_same, ho.shape, hfn, hbod]
      congr 1
      refine List.map_congr_left fun x hx => ?_
      have hne : x ≠ f := by
        rintro rfl
        exact hno b ((hw.body.fixtures b _).mp hx).2
      rw [upd_other _ _ hne, ho.other x hne, hfo x hne]
    obtain ⟨q, hq⟩ := reset_total ((w2.setBody b { w2.g.bodies b with fixtures := f :: (w2.g.bodies b).fixtures, fixtureCount := (w2.g.bodies b).fixtureCount + 1 }).typeOf b)
      ((d.attr.density, d.shape) :: w.massList b)
      ((w2.setBody b { w2.g.bodies b with fixtures := f :: (w2.g.bodies b).fixtures, fixtureCount := (w2.g.bodies b).fixtureCount + 1 }).phys b) hm
    unfold World.resetMassData bodyOp BodyOp.run
    rw [hm2, hq]
    exact ⟨_, rfl⟩
  · exact ⟨_, rfl⟩

/-- What has been written can be read. -/
structure SavedBody.Fine (s : SavedBody F) : Prop where
  linear : 0 ≤ s.defn.linearDamping
  angular : 0 ≤ s.defn.angularDamping
  solid : ∀ d ∈ s.fixtures, Solid (d.attr.density, d.shape)
  children : ∀ d ∈ s.fixtures, ∃ n, d.shape.childCount = some n

theorem IsBody.massList {w : World F} {b : Nat} {s : SavedBody F} (h : IsBody w b s) : w.massList b = (s.fixtures.map fun d => (d.attr.density, d.shape)).reverse := by
  have : w.massList b = ((w.g.bodies b).fixtures.map w.fixDef).map fun d => (d.attr.density, d.shape) := by
    rw [List.map_map]; rfl
  rw [this, h.fixtures, List.map_reverse]

theorem fixtures_total {env : Env F} {b : Nat} : ∀ (l : List (FixDef F)) {w : World F} {s : SavedBody F}, WHist env w → b ∈ w.g.bodyList → Old w → IsBody w b s →
    (∀ d ∈ s.fixtures, Solid (d.attr.density, d.shape)) → (∀ d ∈ l, Solid (d.attr.density, d.shape)) → (∀ d ∈ l, ∃ n, d.shape.childCount = some n) →
    ∃ w', l.foldlM (fun w d => (w.createFixture b d).map Prod.fst) w = some w' := by
  intro l
  induction l with
  | nil => intro w s _ _ _ _ _ _ _; exact ⟨w, rfl⟩
  | cons d l ih =>
    intro w s hh hb ho hs h1 h2 h3
    obtain ⟨n, hn⟩ := h3 d List.mem_cons_self
    have hi := whist_inv hh
    obtain ⟨⟨w1, f⟩, e⟩ := createFixture_total hi.toWInv hi.unlocked hb hn (by
      intro x hx
      rcases List.mem_cons.mp hx with rfl | hx
      · exact h2 d List.mem_cons_self
      · rw [hs.massList, List.mem_reverse] at hx
        obtain ⟨d', hd, rfl⟩ := List.mem_map.mp hx
        exact h1 d' hd)
    have hh1 : WHist env w1 := .call (.createFixture b d) hh hb (by simp only [Call.run, e, Option.map_some])
    obtain ⟨k1, k2, k3⟩ := fixture_body ho hs e
    have hb1 : b ∈ w1.g.bodyList := by
      rw [(k3 0 (Nat.zero_le _)).eq]; exact hb
    obtain ⟨w', e'⟩ := ih hh1 hb1 k2 k1 (by
      intro x hx
      rcases List.mem_append.mp hx with hx | hx
      · exact h1 x hx
      · rw [List.mem_singleton.mp hx]; exact h2 d List.mem_cons_self) (fun x hx => h2 x (List.mem_cons_of_mem _ hx)) (fun x hx => h3 x (List.mem_cons_of_mem _ hx))
    exact ⟨w', by rw [List.foldlM_cons]; simp [e, e']⟩

theorem loadBody_total {env : Env F} {g : Vec2 F} {l : List (SavedBody F)} {w : World F} {s : SavedBody F} (h : Loaded env g l w) (hf : s.Fine) :
    ∃ w', w.loadBody s = some w' := by
  have hi := whist_inv h.hist
  have hp : ∃ p, Phys.new s.defn = some p := by
    unfold Phys.new
    rw [if_pos (by simp [hf.linear, hf.angular])]
    exact ⟨_, rfl⟩
  obtain ⟨p, hp⟩ := hp
  have : ∃ w1 b, w.createBody s.defn = some (w1, b) := by
    unfold createBody
    rw [if_neg (by simp [hi.unlocked]), hp]
    exact ⟨_, _, rfl⟩
  obtain ⟨w1, b, e⟩ := this
  have hh1 : WHist env w1 := .call (.createBody s.defn) h.hist trivial (by simp only [Call.run, e, Option.map_some])
  have e0 : w.loadBody ⟨s.defn, []⟩ = some w1 := by unfold loadBody; rw [e]; rfl
  have hl := loadBody_loaded h e0
  have hb : b = l.length := (createBody_cases e).1.trans h.next
  have hbl : b ∈ w1.g.bodyList := by
    obtain ⟨-, -, p, -, rfl⟩ := createBody_cases e
    exact List.mem_cons_self
  have hs : IsBody w1 b ⟨s.defn, []⟩ := by
    rw [hb]; exact hl.body l.length _ (by simp)
  obtain ⟨w', e'⟩ := fixtures_total s.fixtures hh1 hbl hl.old hs (fun d hd => by cases hd) hf.solid hf.children
  exact ⟨w', by unfold loadBody; rw [e]; simpa using e'⟩

theorem loadBodies_total {env : Env F} {g : Vec2 F} : ∀ (l done : List (SavedBody F)) {w : World F}, Loaded env g done w → (∀ s ∈ l, s.Fine) →
    ∃ w', l.foldlM World.loadBody w = some w' := by
  intro l
  induction l with
  | nil => intro done w _ _; exact ⟨w, rfl⟩
  | cons s l ih =>
    intro done w h hf
    obtain ⟨w1, e1⟩ := loadBody_total h (hf s List.mem_cons_self)
    obtain ⟨w', e'⟩ := ih _ (loadBody_loaded h e1) fun x hx => hf x (List.mem_cons_of_mem _ hx)
    exact ⟨w', by rw [List.foldlM_cons]; simp [e1, e']⟩

/-- The bodies of a written joint are two different ones of `n`. -/
structure SavedJoint.Fine (n : Nat) (d : SavedJoint P) : Prop where
  a : 0 ≤ d.bodyA ∧ d.bodyA.toNat < n
  b : 0 ≤ d.bodyB ∧ d.bodyB.toNat < n
  ne : d.bodyA ≠ d.bodyB

theorem pick_total {l : List Nat} {i : Int} (h : 0 ≤ i ∧ i.toNat < l.length) : ∃ x, Scene.pick l i = some x := by
  unfold Scene.pick
  rw [if_neg (not_lt.mpr h.1)]
  exact ⟨_, List.getElem?_eq_getElem h.2⟩

theorem loadJoints_total {env : Env F} {w0 : World F} (hn : w0.g.bodyList.Nodup) : ∀ (l done : List (SavedJoint P)) {s : Scene F P}, JLoaded env w0 done s →
    (∀ d ∈ l, d.Fine w0.g.bodyList.length) → ∃ s', l.foldlM (Scene.loadJoint w0.g.bodyList) s = some s' := by
  intro l
  induction l with
  | nil => intro done s _ _; exact ⟨s, rfl⟩
  | cons d l ih =>
    intro done s h hf
    have hd := hf d List.mem_cons_self
    obtain ⟨a, ha⟩ := pick_total hd.a
    obtain ⟨b, hb⟩ := pick_total hd.b
    have hab : a ≠ b := by
      rintro rfl
      have := (pick_idx hn ha).symm.trans (pick_idx hn hb)
      have h1 := hd.a.1
      have h2 := hd.b.1
      have h3 := hd.ne
      omega
    have : ∃ s1, Scene.loadJoint w0.g.bodyList s d = some s1 := by
      have : ∃ r, s.world.createJoint ⟨a, b, d.collideConnected⟩ = some r := by
        unfold createJoint
        rw [if_neg (by simp [(whist_inv h.hist).unlocked])]
        dsimp only
        rw [if_neg hab]
        exact ⟨_, rfl⟩
      obtain ⟨r, hr⟩ := this
      unfold Scene.loadJoint
      rw [ha, hb]
      simp only [Option.bind_eq_bind, Option.bind_some, hr]
      exact ⟨_, rfl⟩
    obtain ⟨s1, e1⟩ := this
    obtain ⟨s', e'⟩ := ih _ (loadJoint_loaded h e1) fun x hx => hf x (List.mem_cons_of_mem _ hx)
    exact ⟨s', by rw [List.foldlM_cons]; simp [e1, e']⟩

theorem load_total (env : Env F) {e : Scene F P} {d : SavedWorld F P} (he : Empty e) (hb : ∀ s ∈ d.bodies, s.Fine)
    (hj : ∀ j ∈ d.joints, j.Fine d.bodies.length) (hg : d.gears = []) : ∃ s, Scene.load e d = some s := by
  obtain ⟨w, e1⟩ := loadBodies_total d.bodies [] (loaded_empty env he d.gravity) hb
  have hw := loadBodies d.bodies [] (loaded_empty env he d.gravity) e1
  rw [List.nil_append] at hw
  have hj0 : JLoaded (P := P) env w [] { e with world := w } :=
    ⟨hw.hist, .refl _, hw.joints, hw.nextJoint, fun i x hi => by simp at hi⟩
  have hlen : w.g.bodyList.length = d.bodies.length := by rw [hw.list]; simp
  obtain ⟨s, e2⟩ := loadJoints_total (whist_inv hw.hist).toWInv.body.nodup d.joints [] hj0 (by rw [hlen]; exact hj)
  refine ⟨s, ?_⟩
  unfold Scene.load
  rw [e1, hg]
  simp [e2]

theorem save_fine {env : Env F} {s : Scene F P} (h : WHist env s.world)
    (hd : ∀ b ∈ s.world.g.bodyList, 0 ≤ (s.world.phys b).linearDamping ∧ 0 ≤ (s.world.phys b).angularDamping)
    (hf : ∀ b ∈ s.world.g.bodyList, ∀ x ∈ s.world.massList b, Solid x) :
    (∀ x ∈ s.save.2.bodies, x.Fine) ∧ ∀ j ∈ s.save.2.joints, j.Fine s.save.2.bodies.length := by
  have hi := (whist_inv h).toWInv
  constructor
  · intro x hx
    obtain ⟨b, hb, rfl⟩ := List.mem_map.mp hx
    refine ⟨(hd b hb).1, (hd b hb).2, fun d hd => ?_, fun d hd => ?_⟩
    · obtain ⟨f, hff, rfl⟩ := List.mem_map.mp hd
      exact hf b hb _ (List.mem_map.mpr ⟨f, hff, rfl⟩)
    · obtain ⟨f, hff, rfl⟩ := List.mem_map.mp hd
      exact ⟨_, hi.body.children f b hb ((hi.body.fixtures b f).mp hff).2⟩
  · intro j hj
    obtain ⟨x, hx, hxj⟩ := List.mem_filterMap.mp hj
    obtain ⟨hne, ha, hb⟩ := hi.joint.ends x (List.mem_of_mem_filter hx)
    have ea : (s.number.world.phys (s.number.world.g.joints x).a).islandIndex = (s.world.g.bodyList.idxOf (s.world.g.joints x).a : Int) := number_island hi.body.nodup ha
    have eb : (s.number.world.phys (s.number.world.g.joints x).b).islandIndex = (s.world.g.bodyList.idxOf (s.world.g.joints x).b : Int) := number_island hi.body.nodup hb
    have hlen : s.save.2.bodies.length = s.world.g.bodyList.length := by simp [Scene.save]
    have key : j.bodyA = (s.world.g.bodyList.idxOf (s.world.g.joints x).a : Int) ∧ j.bodyB = (s.world.g.bodyList.idxOf (s.world.g.joints x).b : Int) := by
      unfold Scene.saveJoint at hxj
      dsimp only at hxj
      rw [ea, eb] at hxj
      split at hxj
      · cases hxj
      · cases hxj
      · cases hxj; exact ⟨rfl, rfl⟩
      · cases hxj; exact ⟨rfl, rfl⟩
    have la := List.idxOf_lt_length_of_mem ha
    have lb := List.idxOf_lt_length_of_mem hb
    refine ⟨⟨?_, ?_⟩, ⟨?_, ?_⟩, ?_⟩
    · rw [key.1]; exact Int.natCast_nonneg _
    · rw [key.1, hlen]; simpa using la
    · rw [key.2]; exact Int.natCast_nonneg _
    · rw [key.2, hlen]; simpa using lb
    · rw [key.1, key.2]
      intro he
      exact hne ((List.idxOf_inj ha).mp (Int.ofNat_inj.mp he))

end
end B2
