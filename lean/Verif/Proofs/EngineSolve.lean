import Verif.Proofs.JointPos
import Verif.Proofs.ContactSolver
import Verif.Model.Engine

/-! # Islands with contacts and joints: the solvers do not panic, and what they leave alone -/
set_option linter.unusedSectionVars false
namespace B2
section
variable {F : Type} [Field F] [LinearOrder F] [IsStrictOrderedRing F] [Elem F]
variable {st : JStep F} {bodies : Nat → JBody F} {pos0 : Arr (Pos F)}

/-! ## Joints -/

/-- What is known of a joint once it is set up: its frames are made of the bodies, and it touches the bodies it touched before. -/
def Armed' (bodies : Nat → JBody F) (pos0 : Arr (Pos F)) (T : List Nat → Prop) (j : Joint F) : Prop :=
  j.Armed bodies pos0 ∧ T j.touched

theorem armed_init {T : List Nat → Prop} {j j' : Joint F} {v v' : Arr (Vel F)} (hT : T j.touched)
    (h : j.initVel st bodies pos0 v = some (j', v')) : Armed' bodies pos0 T j' := by
  have hs := (Joint.initVel_pushed h).2.2.2.2
  refine ⟨(Joint.calls_same hs).2.2.2.2.2.2, ?_⟩
  rw [← Joint.touched_strip, hs, Joint.touched_strip, Joint.touched_prepared]
  exact hT

theorem armed_solve {T : List Nat → Prop} {j j' : Joint F} {v v' : Arr (Vel F)} (hj : Armed' bodies pos0 T j)
    (h : j.solveVel st v = some (j', v')) : Armed' bodies pos0 T j' ∧ Pushed (j.touched.map bodies) v v' := by
  obtain ⟨hp, hs⟩ := Joint.solveVel_pushed hj.1 h
  refine ⟨⟨(Joint.same_of_strip hs bodies pos0).2.2.2.2.2.2.2 hj.1, ?_⟩, hp⟩
  rw [← Joint.touched_strip, hs, Joint.touched_strip]
  exact hj.2

theorem initJoints_total : ∀ (l : List (Joint F)) (vel : Arr (Vel F)), pos0.len = vel.len → (∀ j ∈ l, j.In vel.len bodies) →
    ∃ r, initJoints st bodies pos0 l vel = some r ∧ r.2.len = vel.len
  | [], vel, _, _ => ⟨_, rfl, rfl⟩
  | j :: l, vel, hl, hi => by
    obtain ⟨j', v, h⟩ := Joint.initVel_total (st := st) hl (hi j (List.mem_cons_self ..))
    have hv := (Joint.initVel_pushed h).1
    obtain ⟨r, h1, h2⟩ := initJoints_total l v (hl.trans hv.symm) (fun x hx => by rw [hv]; exact hi x (List.mem_cons_of_mem _ hx))
    refine ⟨(j' :: r.1, r.2), ?_, h2.trans hv⟩
    simp only [initJoints, h, h1, Option.bind_eq_bind, Option.bind_some]; rfl

theorem initJoints_rel {R : Arr (Vel F) → Arr (Vel F) → Prop} (hr : ∀ v, R v v) (ht : ∀ u v w, R u v → R v w → R u w) {T : List Nat → Prop} :
    ∀ {l : List (Joint F)} {vel : Arr (Vel F)} {r : List (Joint F) × Arr (Vel F)}, (∀ j ∈ l, T j.touched) →
    (∀ j ∈ l, ∀ v j' v', j.initVel st bodies pos0 v = some (j', v') → R v v') →
    initJoints st bodies pos0 l vel = some r → (∀ j ∈ r.1, Armed' bodies pos0 T j) ∧ R vel r.2
  | [], vel, r, _, _, h => by
    simp only [initJoints, Option.some.injEq] at h
    subst h
    exact ⟨fun _ hj => (by cases hj), hr _⟩
  | j :: l, vel, r, hT, hk, h => by
    simp only [initJoints, Option.bind_eq_bind, Option.bind_eq_some_iff] at h
    obtain ⟨⟨j', v⟩, h1, r', h2, h3⟩ := h
    simp only [Option.pure_def, Option.some.injEq] at h3
    subst h3
    obtain ⟨i1, i2⟩ := initJoints_rel hr ht (T := T) (fun x hx => hT x (List.mem_cons_of_mem _ hx)) (fun x hx => hk x (List.mem_cons_of_mem _ hx)) h2
    refine ⟨fun x hx => ?_, ht _ _ _ (hk j (List.mem_cons_self ..) _ _ _ h1) i2⟩
    rcases List.mem_cons.1 hx with rfl | hx
    · exact armed_init (hT j (List.mem_cons_self ..)) h1
    · exact i1 x hx

theorem solveJoints_total {n : Nat} : ∀ (l : List (Joint F)) (vel : Arr (Vel F)), vel.len = n →
    (∀ j ∈ l, Armed' bodies pos0 (fun t => ∀ b ∈ t, (bodies b).index < n) j) → ∃ r, solveJoints st l vel = some r ∧ r.2.len = n
  | [], vel, hn, _ => ⟨_, rfl, hn⟩
  | j :: l, vel, hn, hi => by
    have hj := hi j (List.mem_cons_self ..)
    obtain ⟨j', v, h⟩ := Joint.solveVel_total (st := st) (vel := vel) hj.1 (by rw [hn]; exact hj.2)
    have hv := (armed_solve hj h).2.len
    obtain ⟨r, h1, h2⟩ := solveJoints_total l v (hv.trans hn) (fun x hx => hi x (List.mem_cons_of_mem _ hx))
    refine ⟨(j' :: r.1, r.2), ?_, h2⟩
    simp only [solveJoints, h, h1, Option.bind_eq_bind, Option.bind_some]; rfl

theorem solveJoints_rel {R : Arr (Vel F) → Arr (Vel F) → Prop} (hr : ∀ v, R v v) (ht : ∀ u v w, R u v → R v w → R u w) {T : List Nat → Prop}
    (hk : ∀ t v v', T t → Pushed (t.map bodies) v v' → R v v') :
    ∀ {l : List (Joint F)} {vel : Arr (Vel F)} {r : List (Joint F) × Arr (Vel F)}, (∀ j ∈ l, Armed' bodies pos0 T j) →
    solveJoints st l vel = some r → (∀ j ∈ r.1, Armed' bodies pos0 T j) ∧ R vel r.2
  | [], vel, r, _, h => by
    simp only [solveJoints, Option.some.injEq] at h
    subst h
    exact ⟨fun _ hj => (by cases hj), hr _⟩
  | j :: l, vel, r, hT, h => by
    simp only [solveJoints, Option.bind_eq_bind, Option.bind_eq_some_iff] at h
    obtain ⟨⟨j', v⟩, h1, r', h2, h3⟩ := h
    simp only [Option.pure_def, Option.some.injEq] at h3
    subst h3
    obtain ⟨i1, i2⟩ := solveJoints_rel hr ht hk (fun x hx => hT x (List.mem_cons_of_mem _ hx)) h2
    have hj := hT j (List.mem_cons_self ..)
    obtain ⟨k1, k2⟩ := armed_solve hj h1
    refine ⟨fun x hx => ?_, ht _ _ _ (hk _ _ _ hj.2 k2) i2⟩
    rcases List.mem_cons.1 hx with rfl | hx
    · exact k1
    · exact i1 x hx

theorem solvePosJoints_total {n : Nat} : ∀ (l : List (Joint F)) (pos : Arr (Pos F)), pos.len = n →
    (∀ j ∈ l, Armed' bodies pos0 (fun t => ∀ b ∈ t, (bodies b).index < n) j) → ∃ r, solvePosJoints l pos = some r ∧ r.1.len = n
  | [], pos, hn, _ => ⟨_, rfl, hn⟩
  | j :: l, pos, hn, hi => by
    have hj := hi j (List.mem_cons_self ..)
    obtain ⟨r, h, hs⟩ := Joint.solvePos_total (pos := pos) hj.1 (by rw [hn]; exact hj.2)
    obtain ⟨r', h1, h2⟩ := solvePosJoints_total l r.1 (hs.len.trans hn) (fun x hx => hi x (List.mem_cons_of_mem _ hx))
    refine ⟨(r'.1, r.2 && r'.2), ?_, h2⟩
    simp only [solvePosJoints, h, h1, Option.bind_eq_bind, Option.bind_some]; rfl

theorem solvePosJoints_rel {R : Arr (Pos F) → Arr (Pos F) → Prop} (hr : ∀ v, R v v) (ht : ∀ u v w, R u v → R v w → R u w) {T : List Nat → Prop}
    (hk : ∀ t v v', T t → Shifted (t.map bodies) v v' → R v v') :
    ∀ {l : List (Joint F)} {pos : Arr (Pos F)} {r : Arr (Pos F) × Bool}, (∀ j ∈ l, Armed' bodies pos0 T j) →
    solvePosJoints l pos = some r → R pos r.1
  | [], pos, r, _, h => by
    simp only [solvePosJoints, Option.some.injEq] at h
    subst h
    exact hr _
  | j :: l, pos, r, hT, h => by
    simp only [solvePosJoints, Option.bind_eq_bind, Option.bind_eq_some_iff] at h
    obtain ⟨q, h1, r', h2, h3⟩ := h
    simp only [Option.pure_def, Option.some.injEq] at h3
    subst h3
    have hj := hT j (List.mem_cons_self ..)
    exact ht _ _ _ (hk _ _ _ hj.2 (Joint.solvePos_shifted hj.1 h1)) (solvePosJoints_rel (r := r') hr ht hk (fun x hx => hT x (List.mem_cons_of_mem _ hx)) h2)

/-! ## Velocities -/

theorem islandIterate_total {n : Nat} {block : Bool} : ∀ (k : Nat) (js : List (Joint F)) (l : List (VConstraint F)) (vel : Arr (Vel F)), vel.len = n →
    (∀ j ∈ js, Armed' bodies pos0 (fun t => ∀ b ∈ t, (bodies b).index < n) j) → (∀ vc ∈ l, Solvable n vc) →
    ∃ r, islandIterate st block k js l vel = some r
  | 0, js, l, vel, _, _, _ => ⟨_, rfl⟩
  | k + 1, js, l, vel, hn, hj, hl => by
    obtain ⟨r, h1, h2⟩ := solveJoints_total (st := st) js vel hn hj
    have hj' := (solveJoints_rel (R := fun _ _ => True) (fun _ => trivial) (fun _ _ _ _ _ => trivial) (fun _ _ _ _ _ => trivial) hj h1).1
    obtain ⟨l', v', h3, h4, h5⟩ := solveVelocities_total block l r.2 (by rw [h2]; exact hl)
    obtain ⟨q, hq⟩ := islandIterate_total k r.1 l' v' (h4.trans h2) hj' (by rw [← h2]; exact h5)
    exact ⟨q, by simp only [islandIterate, h1, h3, Option.bind_eq_bind, Option.bind_some]; exact hq⟩

theorem islandIterate_rel {R : Arr (Vel F) → Arr (Vel F) → Prop} (hr : ∀ v, R v v) (ht : ∀ u v w, R u v → R v w → R u w) {T : List Nat → Prop}
    (hk : ∀ t v v', T t → Pushed (t.map bodies) v v' → R v v') {block : Bool} :
    ∀ {k : Nat} {js : List (Joint F)} {l : List (VConstraint F)} {vel : Arr (Vel F)} {r : List (Joint F) × List (VConstraint F) × Arr (Vel F)},
    (∀ j ∈ js, Armed' bodies pos0 T j) → (∀ vc ∈ l, ∀ v v', Kick vc v v' → R v v') → islandIterate st block k js l vel = some r →
    (∀ j ∈ r.1, Armed' bodies pos0 T j) ∧ List.Forall₂ SameSetup l r.2.1 ∧ R vel r.2.2
  | 0, js, l, vel, r, hj, _, h => by
    simp only [islandIterate, Option.some.injEq] at h
    subst h
    exact ⟨hj, sameSetup_refl_list _, hr _⟩
  | k + 1, js, l, vel, r, hj, hl, h => by
    simp only [islandIterate, Option.bind_eq_bind, Option.bind_eq_some_iff] at h
    obtain ⟨q, h1, ⟨l', v'⟩, h2, h3⟩ := h
    obtain ⟨a1, a2⟩ := solveJoints_rel hr ht hk hj h1
    obtain ⟨b1, b2⟩ := solveVelocities_rel hr ht hl h2
    obtain ⟨c1, c2, c3⟩ := islandIterate_rel hr ht hk a1 (kick_rel_same b1 hl) h3
    exact ⟨c1, sameSetup_trans_list b1 c2, ht _ _ _ (ht _ _ _ a2 b2) c3⟩

/-- Constraints that can be solved still can after the iterations. -/
theorem islandIterate_solvable {n : Nat} {block : Bool} {T : List Nat → Prop} :
    ∀ {k : Nat} {js : List (Joint F)} {l : List (VConstraint F)} {vel : Arr (Vel F)} {r : List (Joint F) × List (VConstraint F) × Arr (Vel F)}, vel.len = n →
    (∀ j ∈ js, Armed' bodies pos0 T j) → (∀ vc ∈ l, Solvable n vc) → islandIterate st block k js l vel = some r → ∀ vc ∈ r.2.1, Solvable n vc
  | 0, js, l, vel, r, _, _, hl, h => by
    simp only [islandIterate, Option.some.injEq] at h
    subst h
    exact hl
  | k + 1, js, l, vel, r, hn, hj, hl, h => by
    simp only [islandIterate, Option.bind_eq_bind, Option.bind_eq_some_iff] at h
    obtain ⟨q, h1, ⟨l', v'⟩, h2, h3⟩ := h
    obtain ⟨a1, a2⟩ := solveJoints_rel (R := fun v v' => v'.len = v.len) (fun _ => rfl) (fun _ _ _ h h' => h'.trans h) (fun _ _ _ _ h => h.len) hj h1
    obtain ⟨l2, v2, b1, b2, b3⟩ := solveVelocities_total block l q.2 (by rw [a2, hn]; exact hl)
    rw [h2] at b1
    obtain ⟨rfl, rfl⟩ := Prod.mk.inj (Option.some.inj b1)
    exact islandIterate_solvable (b2.trans (a2.trans hn)) a1 (by rw [← hn, ← a2]; exact b3) h3

variable {block : Bool} {iterations : Nat} {pos : Arr (Pos F)} {vel : Arr (Vel F)} {contacts : List (ContactIn F)} {joints : List (Joint F)}

theorem setUp_lt {warm : Bool} {dtRatio : F} {cs : List (VConstraint F × PConstraint F)} (h : setUp warm dtRatio block pos vel contacts = some cs) :
    ∀ c ∈ contacts, c.indexA < vel.len ∧ c.indexB < vel.len := by
  intro c hc
  obtain ⟨i, hi, rfl⟩ := List.getElem_of_mem hc
  have hf := mapM_forall2 h
  have := (List.forall₂_iff_get.1 hf).2 i hi (by rw [← hf.length_eq]; exact hi)
  simp only [List.get_eq_getElem] at this
  obtain ⟨r, h1, h2⟩ := Option.bind_eq_some_iff.1 this
  obtain ⟨vc, h3, -⟩ := Option.bind_eq_some_iff.1 h2
  have hv : r.1.indexA = contacts[i].indexA ∧ r.1.indexB = contacts[i].indexB := by
    unfold newConstraint at h1
    split at h1
    · simp only [Option.some.injEq] at h1; subst h1; exact ⟨rfl, rfl⟩
    · simp only [Option.some.injEq] at h1; subst h1; exact ⟨rfl, rfl⟩
    · cases h1
  unfold initConstraint at h3
  simp only [Option.bind_eq_bind, Option.bind_eq_some_iff] at h3
  obtain ⟨pA, _, vA, hA, pB, _, vB, hB, _⟩ := h3
  rw [← hv.1, ← hv.2]
  exact ⟨(Arr.get_some hA).1, (Arr.get_some hB).1⟩

/-- The constraint made of a contact is the contact's as regards bodies and masses. -/
theorem setUp_each {warm : Bool} {dtRatio : F} {cs : List (VConstraint F × PConstraint F)} (h : setUp warm dtRatio block pos vel contacts = some cs)
    {vc : VConstraint F} (hv : vc ∈ cs.map (·.1)) : ∃ c ∈ contacts, Ready block c pos vel vc := by
  have hs := setUp_spec h
  obtain ⟨i, hi, rfl⟩ := List.getElem_of_mem hv
  have hlen : i < contacts.length := by rw [hs.length_eq]; exact hi
  have := (List.forall₂_iff_get.1 hs).2 i hlen hi
  simp only [List.get_eq_getElem] at this
  exact ⟨_, List.getElem_mem hlen, this.1⟩

theorem islandVelocity_total (hl : pos.len = vel.len) (hd : 0 ≤ st.dtRatio)
    (hc : ∀ c ∈ contacts, (c.manifold.points.length = 1 ∨ c.manifold.points.length = 2) ∧ c.indexA < vel.len ∧ c.indexB < vel.len ∧ Pushing c.manifold)
    (hj : ∀ j ∈ joints, j.In vel.len bodies) : ∃ r, islandVelocity st block iterations bodies pos vel contacts joints = some r := by
  obtain ⟨cs, h1⟩ := setUp_total (warm := st.warmStarting) (dtRatio := st.dtRatio) (block := block) hl (fun c h => ⟨(hc c h).1, (hc c h).2.1, (hc c h).2.2.1⟩)
  have hsv := setUp_solvable h1 hd (fun c h => (hc c h).2)
  have hw : ∃ v1, warmIf st.warmStarting (cs.map (·.1)) vel = some v1 ∧ v1.len = vel.len := by
    unfold warmIf
    split
    · exact warmStart_total _ _ hsv
    · exact ⟨vel, rfl, rfl⟩
  obtain ⟨v1, h2, hl1⟩ := hw
  obtain ⟨r, h3, hl3⟩ := initJoints_total (st := st) (bodies := bodies) (pos0 := pos) joints v1 (hl.trans hl1.symm) (by rw [hl1]; exact hj)
  have ha := (initJoints_rel (R := fun _ _ => True) (fun _ => trivial) (fun _ _ _ _ _ => trivial) (T := fun t => ∀ b ∈ t, (bodies b).index < vel.len)
    hj (fun _ _ _ _ _ _ => trivial) h3).1
  obtain ⟨q, h4⟩ := islandIterate_total (st := st) (block := block) iterations r.1 (cs.map (·.1)) r.2 (hl3.trans hl1) ha hsv
  refine ⟨(q.1, q.2.2, (q.2.1.zip contacts).map fun x => storeInto x.1 x.2.manifold), ?_⟩
  simp only [islandVelocity, h1, h2, h3, h4, Option.bind_eq_bind, Option.bind_some]; rfl

theorem islandVelocity_rel {R : Arr (Vel F) → Arr (Vel F) → Prop} (hr : ∀ v, R v v) (ht : ∀ u v w, R u v → R v w → R u w) {T : List Nat → Prop}
    (hT : ∀ j ∈ joints, T j.touched) (hi : ∀ j ∈ joints, ∀ v j' v', j.initVel st bodies pos v = some (j', v') → R v v')
    (hk : ∀ t v v', T t → Pushed (t.map bodies) v v' → R v v') (hc : ∀ c ∈ contacts, ∀ vc, Ready block c pos vel vc → ∀ v v', Kick vc v v' → R v v')
    {r : List (Joint F) × Arr (Vel F) × List (Manifold F)} (h : islandVelocity st block iterations bodies pos vel contacts joints = some r) :
    (∀ j ∈ r.1, Armed' bodies pos T j) ∧ R vel r.2.1 := by
  simp only [islandVelocity, Option.bind_eq_bind, Option.bind_eq_some_iff] at h
  obtain ⟨cs, h1, v1, h2, js, h3, q, h4, h5⟩ := h
  simp only [Option.pure_def, Option.some.injEq] at h5
  subst h5
  have hkick : ∀ vc ∈ cs.map (·.1), ∀ v v', Kick vc v v' → R v v' := fun vc hv => by
    obtain ⟨c, hcm, hrd⟩ := setUp_each h1 hv
    exact hc c hcm vc hrd
  have hw : R vel v1 := by
    unfold warmIf at h2
    split at h2
    · exact warmStart_rel hr ht hkick h2
    · cases h2; exact hr _
  obtain ⟨a1, a2⟩ := initJoints_rel hr ht hT hi h3
  obtain ⟨b1, -, b3⟩ := islandIterate_rel hr ht hk a1 hkick h4
  exact ⟨b1, ht _ _ _ (ht _ _ _ hw a2) b3⟩

theorem islandVelocity_push (hd : 0 ≤ st.dtRatio) (hp : ∀ c ∈ contacts, Pushing c.manifold)
    {r : List (Joint F) × Arr (Vel F) × List (Manifold F)} (h : islandVelocity st block iterations bodies pos vel contacts joints = some r) :
    ∀ m ∈ r.2.2, Pushing m := by
  simp only [islandVelocity, Option.bind_eq_bind, Option.bind_eq_some_iff] at h
  obtain ⟨cs, h1, v1, h2, js, h3, q, h4, h5⟩ := h
  simp only [Option.pure_def, Option.some.injEq] at h5
  subst h5
  have hsv := setUp_solvable h1 hd (fun c h => ⟨(setUp_lt h1 c h).1, (setUp_lt h1 c h).2, hp c h⟩)
  have hl1 : v1.len = vel.len := by
    unfold warmIf at h2
    split at h2
    · obtain ⟨v2, e1, e2⟩ := warmStart_total _ _ hsv
      rw [h2] at e1
      rw [Option.some.inj e1]; exact e2
    · cases h2; rfl
  obtain ⟨a1, a2⟩ := initJoints_rel (R := fun v v' => v'.len = v.len) (fun _ => rfl) (fun _ _ _ h h' => h'.trans h) (T := fun _ => True)
    (fun _ _ => trivial) (fun j _ v j' v' e => (Joint.initVel_pushed e).1) h3
  have hs' := islandIterate_solvable (a2.trans hl1) a1 hsv h4
  intro m hm
  obtain ⟨x, hx, rfl⟩ := List.mem_map.1 hm
  have hx1 := List.of_mem_zip hx
  obtain ⟨_, _, hcnt, hn1, hn2⟩ := hs' _ hx1.1
  intro p hpm
  simp only [storeInto] at hpm
  obtain ⟨j, hj, rfl⟩ := List.mem_mapIdx.1 hpm
  have hold := hp _ hx1.2 _ (List.getElem_mem hj)
  split
  · split
    · exact hn1
    · rename_i h1 h0
      exact hn2 (by omega)
  · exact hold

/-! ## Positions -/

theorem newConstraints_total {warm : Bool} {dtRatio : F} (h : ∀ c ∈ contacts, c.manifold.points.length = 1 ∨ c.manifold.points.length = 2) :
    ∃ cs, contacts.mapM (newConstraint warm dtRatio) = some cs := by
  refine mapM_total fun c hc => ?_
  have := h c hc
  unfold newConstraint
  rcases hq : c.manifold.points with _ | ⟨q, _ | ⟨q2, _ | ⟨q3, l⟩⟩⟩
  · rw [hq] at this; simp at this
  · exact ⟨_, rfl⟩
  · exact ⟨_, rfl⟩
  · rw [hq] at this; simp at this

theorem newConstraints_each {warm : Bool} {dtRatio : F} {cs : List (VConstraint F × PConstraint F)}
    (h : contacts.mapM (newConstraint warm dtRatio) = some cs) {pc : PConstraint F} (hv : pc ∈ cs.map (·.2)) :
    ∃ c ∈ contacts, pc.indexA = c.indexA ∧ pc.indexB = c.indexB ∧ pc.invMassA = c.invMassA ∧ pc.invMassB = c.invMassB ∧
      pc.invIA = c.invIA ∧ pc.invIB = c.invIB ∧ pc.pointCount ≤ 2 := by
  obtain ⟨x, hx, rfl⟩ := List.mem_map.1 hv
  obtain ⟨i, hi, rfl⟩ := List.getElem_of_mem hx
  have hf := mapM_forall2 h
  have hlen : i < contacts.length := by rw [hf.length_eq]; exact hi
  have := (List.forall₂_iff_get.1 hf).2 i hlen hi
  simp only [List.get_eq_getElem] at this
  obtain ⟨e1, e2, e3, e4, e5, e6, -, -, -, -, -, e7⟩ := newConstraint_pc this
  exact ⟨_, List.getElem_mem hlen, e1, e2, e3, e4, e5, e6, e7⟩

theorem islandPositions_total {n : Nat} {l : List (PConstraint F)} (hl : ∀ pc ∈ l, pc.indexA < n ∧ pc.indexB < n ∧ pc.pointCount ≤ 2)
    {js : List (Joint F)} (hj : ∀ j ∈ js, Armed' bodies pos0 (fun t => ∀ b ∈ t, (bodies b).index < n) j) :
    ∀ (k : Nat) (pos : Arr (Pos F)), pos.len = n → ∃ r, islandPositions js l k pos = some r
  | 0, pos, _ => ⟨_, rfl⟩
  | k + 1, pos, hn => by
    obtain ⟨q, h1, h2⟩ := solvePosLoop_total baumgarte (fun pc : PConstraint F => ⟨pc.invMassA, pc.invIA, pc.invMassB, pc.invIB⟩) l 0 pos (by rw [hn]; exact hl)
    obtain ⟨r, h3, h4⟩ := solvePosJoints_total js q.2 (h2.trans hn) hj
    have h1' : solvePositions l pos = some (decide (q.1 ≥ -3 * linearSlop), q.2) := by
      simp only [solvePositions, h1, Option.bind_eq_bind, Option.bind_some]; rfl
    simp only [islandPositions, h1', h3, Option.bind_eq_bind, Option.bind_some]
    split
    · exact ⟨_, rfl⟩
    · exact islandPositions_total hl hj k r.1 h4

theorem islandPositions_rel {R : Arr (Pos F) → Arr (Pos F) → Prop} (hr : ∀ v, R v v) (ht : ∀ u v w, R u v → R v w → R u w) {T : List Nat → Prop}
    (hk : ∀ t v v', T t → Shifted (t.map bodies) v v' → R v v') {l : List (PConstraint F)}
    (hl : ∀ pc ∈ l, ∀ (p : Arr (Pos F)) (s' : TwoPos F) (m : F), pc.indexA < p.len → pc.indexB < p.len →
      Shift ⟨pc.invMassA, pc.invIA, pc.invMassB, pc.invIB⟩ ⟨p.at' pc.indexA, p.at' pc.indexB, m⟩ s' →
      R p ⟨p.len, upd (upd p.at' pc.indexA s'.a) pc.indexB s'.b⟩) {js : List (Joint F)} (hj : ∀ j ∈ js, Armed' bodies pos0 T j) :
    ∀ {k : Nat} {pos : Arr (Pos F)} {r : Arr (Pos F) × Bool}, islandPositions js l k pos = some r → R pos r.1
  | 0, pos, r, h => by
    simp only [islandPositions, Option.some.injEq] at h
    subst h; exact hr _
  | k + 1, pos, r, h => by
    simp only [islandPositions, Option.bind_eq_bind, Option.bind_eq_some_iff] at h
    obtain ⟨q, h1, q', h2, h3⟩ := h
    simp only [solvePositions, Option.bind_eq_bind, Option.bind_eq_some_iff] at h1
    obtain ⟨x, h4, h5⟩ := h1
    simp only [Option.pure_def, Option.some.injEq] at h5
    subst h5
    have a := solvePosLoop_rel hr ht hl h4
    have b := solvePosJoints_rel hr ht hk hj h2
    split at h3
    · simp only [Option.pure_def, Option.some.injEq] at h3
      subst h3
      exact ht _ _ _ a b
    · exact ht _ _ _ (ht _ _ _ a b) (islandPositions_rel hr ht hk hl hj h3)

theorem toiIterate_total {n : Nat} {l : List (PConstraint F)} (hl : ∀ pc ∈ l, pc.indexA < n ∧ pc.indexB < n ∧ pc.pointCount ≤ 2) :
    ∀ (k : Nat) (pos : Arr (Pos F)), pos.len = n → ∃ r, Engine.toiIterate l k pos = some r ∧ r.len = n
  | 0, pos, hn => ⟨_, rfl, hn⟩
  | k + 1, pos, hn => by
    obtain ⟨q, h1, h2⟩ := solvePosLoop_total toiBaumgarte (toiMasses 0 1) l 0 pos (by rw [hn]; exact hl)
    have h1' : solveToiPositions 0 1 l pos = some (decide (q.1 ≥ -(3 / 2) * linearSlop), q.2) := by
      simp only [solveToiPositions, h1, Option.bind_eq_bind, Option.bind_some]; rfl
    simp only [Engine.toiIterate, h1', Option.bind_eq_bind, Option.bind_some]
    split
    · exact ⟨_, rfl, h2.trans hn⟩
    · exact toiIterate_total hl k q.2 (h2.trans hn)

theorem toiIterate_rel {R : Arr (Pos F) → Arr (Pos F) → Prop} (hr : ∀ v, R v v) (ht : ∀ u v w, R u v → R v w → R u w) {l : List (PConstraint F)}
    (hl : ∀ pc ∈ l, ∀ (p : Arr (Pos F)) (s' : TwoPos F) (m : F), pc.indexA < p.len → pc.indexB < p.len →
      Shift (toiMasses 0 1 pc) ⟨p.at' pc.indexA, p.at' pc.indexB, m⟩ s' →
      R p ⟨p.len, upd (upd p.at' pc.indexA s'.a) pc.indexB s'.b⟩) :
    ∀ {k : Nat} {pos r : Arr (Pos F)}, Engine.toiIterate l k pos = some r → R pos r
  | 0, pos, r, h => by
    simp only [Engine.toiIterate, Option.some.injEq] at h
    subst h; exact hr _
  | k + 1, pos, r, h => by
    simp only [Engine.toiIterate, Option.bind_eq_bind, Option.bind_eq_some_iff] at h
    obtain ⟨q, h1, h3⟩ := h
    simp only [solveToiPositions, Option.bind_eq_bind, Option.bind_eq_some_iff] at h1
    obtain ⟨x, h4, h5⟩ := h1
    simp only [Option.pure_def, Option.some.injEq] at h5
    subst h5
    have a := solvePosLoop_rel hr ht hl h4
    split at h3
    · simp only [Option.pure_def, Option.some.injEq] at h3
      subst h3
      exact a
    · exact ht _ _ _ a (toiIterate_rel hr ht hl h3)

end
end B2
