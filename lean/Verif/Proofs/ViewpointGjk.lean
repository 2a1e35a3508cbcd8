import Verif.Proofs.Viewpoint
import Verif.Proofs.Distance

/-!
# The distance algorithm and shape casts under a rigid change of coordinates
-/
set_option linter.unusedSectionVars false

namespace B2
open Spec

section
variable {F : Type} [Field F] [LinearOrder F] [IsStrictOrderedRing F] [Elem F] {T : Xf F}

/-- A slot of the simplex in the new coordinates. -/
def carrySV (T : Xf F) (v : SimplexVertex F) : SimplexVertex F :=
  { v with wA := carry T v.wA, wB := carry T v.wB, w := turnBy T v.w }

/-- `s'` is the simplex `s` in the new coordinates, as far as its slots are in use. -/
structure SRel (T : Xf F) (s s' : Simplex F) : Prop where
  count : s'.count = s.count
  a0 : s'.v0.a = s.v0.a
  a1 : s'.v1.a = s.v1.a
  a2 : s'.v2.a = s.v2.a
  u0 : 0 < s.count → s'.v0 = carrySV T s.v0
  u1 : 1 < s.count → s'.v1 = carrySV T s.v1
  u2 : 2 < s.count → s'.v2 = carrySV T s.v2

theorem makeVertex_viewed (hT : Rigid T) (pA pB : Proxy F) (xA xB : Xf F) (i : Nat × Nat) (a : F) :
    makeVertex pA pB (viewed T xA) (viewed T xB) i a = (makeVertex pA pB xA xB i a).map (carrySV T) := by
  simp only [makeVertex, viewed_mulV, carry_sub]
  cases pA.vertex i.1 with
  | none => rfl
  | some _ => cases pB.vertex i.2 <;> rfl

theorem newVertex_viewed (hT : Rigid T) (pA pB : Proxy F) (xA xB : Xf F) (d : Vec2 F) (a : F) :
    newVertex pA pB (viewed T xA) (viewed T xB) (turnBy T d) a = (newVertex pA pB xA xB d a).map (carrySV T) := by
  simp only [newVertex, turn_neg, viewed_q_mulTV hT, makeVertex_viewed hT]
  cases pA.support (xA.q.mulTV (-d)) with
  | none => rfl
  | some _ => cases pB.support (xB.q.mulTV d) <;> rfl

/-- `Option`s related by a relation: both nothing, or both something and related. -/
def ORel {α β : Type} (R : α → β → Prop) : Option α → Option β → Prop
  | none, none => True
  | some a, some b => R a b
  | _, _ => False

theorem ORel.bind {α β γ δ : Type} {R : α → β → Prop} {Q : γ → δ → Prop} {a : Option α} {b : Option β} (h : ORel R a b)
    {f : α → Option γ} {g : β → Option δ} (hf : ∀ x y, R x y → ORel Q (f x) (g y)) : ORel Q (a >>= f) (b >>= g) := by
  cases a <;> cases b
  · trivial
  · exact False.elim h
  · exact False.elim h
  · exact hf _ _ h

theorem ORel.map_right {α β : Type} (f : α → β) (a : Option α) : ORel (fun x y => y = f x) a (a.map f) := by
  cases a
  · trivial
  · rfl

theorem ORel.refl' {α : Type} (a : Option α) : ORel (fun x y => y = x) a a := by
  cases a
  · trivial
  · rfl

theorem SRel.metric (hT : Rigid T) {s s' : Simplex F} (h : SRel T s s') : s'.metric = s.metric := by
  obtain ⟨v0, v1, v2, n⟩ := s
  obtain ⟨w0, w1, w2, m⟩ := s'
  obtain ⟨hc, -, -, -, h0, h1, h2⟩ := h
  dsimp only at hc h0 h1 h2
  subst hc
  match m with
  | 0 => rfl
  | 1 => rfl
  | 2 =>
    simp only [Simplex.metric, h0 (by omega), h1 (by omega), carrySV, distanceV, turn_sub, length_turn hT]
  | 3 =>
    simp only [Simplex.metric, h0 (by omega), h1 (by omega), h2 (by omega), carrySV, turn_sub, cross_turn hT]
  | _ + 4 => rfl

theorem SRel.fill (hT : Rigid T) (c : Cache F) (pA pB : Proxy F) (xA xB : Xf F) {s s' : Simplex F} (h : SRel T s s') :
    ORel (SRel T) (s.fill c pA pB xA xB) (s'.fill c pA pB (viewed T xA) (viewed T xB)) := by
  have hm := makeVertex_viewed hT pA pB xA xB
  have e : ∀ i a, ORel (fun x y => y = carrySV T x) (makeVertex pA pB xA xB i a)
      (makeVertex pA pB (viewed T xA) (viewed T xB) i a) := fun i a => by rw [hm]; exact .map_right _ _
  unfold Simplex.fill
  split
  · exact ⟨rfl, h.a0, h.a1, h.a2, by simp, by simp, by simp⟩
  · refine (e _ _).bind fun x y hx => ?_
    subst hx
    exact ⟨rfl, rfl, h.a1, h.a2, fun _ => rfl, by simp, by simp⟩
  · refine (e _ _).bind fun x y hx => (e _ _).bind fun x' y' hx' => ?_
    subst hx hx'
    exact ⟨rfl, rfl, rfl, h.a2, fun _ => rfl, fun _ => rfl, by simp⟩
  · refine (e _ _).bind fun x y hx => (e _ _).bind fun x' y' hx' => (e _ _).bind fun x'' y'' hx'' => ?_
    subst hx hx' hx''
    exact ⟨rfl, rfl, rfl, rfl, fun _ => rfl, fun _ => rfl, fun _ => rfl⟩
  · trivial

theorem SRel.flush (hT : Rigid T) (m : F) {s s' : Simplex F} (h : SRel T s s') : ORel (SRel T) (s.flush m) (s'.flush m) := by
  unfold Simplex.flush
  rw [h.metric hT, h.count]
  split
  · refine (ORel.refl' s.metric).bind fun x y hx => ?_
    subst hx
    split
    · exact ⟨rfl, h.a0, h.a1, h.a2, by simp, by simp, by simp⟩
    · exact h
  · exact h

theorem SRel.readCache (hT : Rigid T) (c : Cache F) (pA pB : Proxy F) (xA xB : Xf F) {s s' : Simplex F} (h : SRel T s s') :
    ORel (SRel T) (s.readCache c pA pB xA xB) (s'.readCache c pA pB (viewed T xA) (viewed T xB)) := by
  unfold Simplex.readCache
  refine (h.fill hT c pA pB xA xB).bind fun x y hx => (hx.flush hT _).bind fun x y hx => ?_
  rw [hx.count]
  split
  · rw [makeVertex_viewed hT]
    refine (ORel.map_right _ _).bind fun u v hv => ?_
    subst hv
    exact ⟨rfl, rfl, hx.a1, hx.a2, fun _ => rfl, by simp, by simp⟩
  · exact hx

theorem SRel.solve (hT : Rigid T) {s s' : Simplex F} (h : SRel T s s') : ORel (SRel T) s.solve s'.solve := by
  obtain ⟨v0, v1, v2, n⟩ := s
  obtain ⟨w0, w1, w2, m⟩ := s'
  have h' := h
  obtain ⟨hc, ha0, ha1, ha2, h0, h1, h2⟩ := h
  dsimp only at hc h0 h1 h2 ha0 ha1 ha2
  subst hc
  match m with
  | 0 => trivial
  | 1 => exact h'
  | 2 =>
    obtain rfl := h0 (by omega)
    obtain rfl := h1 (by omega)
    show SRel T _ _
    simp only [Simplex.solve2, carrySV, turn_sub, dot_turn hT]
    split_ifs <;> constructor <;> simp [carrySV, ha2]
  | 3 =>
    obtain rfl := h0 (by omega)
    obtain rfl := h1 (by omega)
    obtain rfl := h2 (by omega)
    show SRel T _ _
    simp only [Simplex.solve3, carrySV, turn_sub, dot_turn hT, cross_turn hT]
    split_ifs <;> constructor <;> simp [carrySV]
  | _ + 4 => trivial

theorem SRel.pairs {s s' : Simplex F} (h : SRel T s s') : s'.pairs = s.pairs := by
  obtain ⟨v0, v1, v2, n⟩ := s
  obtain ⟨w0, w1, w2, m⟩ := s'
  obtain ⟨hc, -, -, -, h0, h1, h2⟩ := h
  dsimp only at hc h0 h1 h2
  subst hc
  match m with
  | 0 => rfl
  | 1 => simp [Simplex.pairs, h0, carrySV]
  | 2 => simp [Simplex.pairs, h0, h1, carrySV]
  | _ + 3 => simp [Simplex.pairs, h0, h1, h2, carrySV]

theorem SRel.direction (hT : Rigid T) {s s' : Simplex F} (h : SRel T s s') :
    s'.direction = s.direction.map (turnBy T) := by
  obtain ⟨v0, v1, v2, n⟩ := s
  obtain ⟨w0, w1, w2, m⟩ := s'
  obtain ⟨hc, -, -, -, h0, h1, h2⟩ := h
  dsimp only at hc h0 h1 h2
  subst hc
  match m with
  | 0 => rfl
  | 1 => simp [Simplex.direction, h0, carrySV, turn_neg]
  | 2 =>
    simp only [Simplex.direction, h0 (by omega), h1 (by omega), carrySV, turn_neg, turn_sub, cross_turn hT, turn_crossSV,
      turn_crossVS]
    split <;> rfl
  | _ + 3 => rfl

theorem SRel.get {s s' : Simplex F} (h : SRel T s s') (i : Nat) :
    ORel (fun u u' => u'.a = u.a) (s.get i) (s'.get i) := by
  match i with
  | 0 => exact h.a0
  | 1 => exact h.a1
  | 2 => exact h.a2
  | _ + 3 => trivial

/-- Writing the slot after the last one in use; then that slot may be counted. -/
theorem SRel.put {s s' : Simplex F} (h : SRel T s s') (v : SimplexVertex F) :
    ORel (fun x y => SRel T x y ∧ SRel T { x with count := s.count + 1 } { y with count := s.count + 1 } ∧ x.count = s.count ∧
      y.count = s.count) (s.put s.count v) (s'.put s.count (carrySV T v)) := by
  obtain ⟨v0, v1, v2, n⟩ := s
  obtain ⟨w0, w1, w2, m⟩ := s'
  obtain ⟨hc, ha0, ha1, ha2, h0, h1, h2⟩ := h
  dsimp only at hc h0 h1 h2 ha0 ha1 ha2
  subst hc
  match m with
  | 0 => exact ⟨⟨rfl, rfl, ha1, ha2, by simp, by simp, by simp⟩, ⟨rfl, rfl, ha1, ha2, fun _ => rfl, by simp, by simp⟩, rfl, rfl⟩
  | 1 =>
    exact ⟨⟨rfl, ha0, rfl, ha2, h0, by simp, by simp⟩, ⟨rfl, ha0, rfl, ha2, fun _ => h0 (by omega), fun _ => rfl, by simp⟩, rfl, rfl⟩
  | 2 =>
    exact ⟨⟨rfl, ha0, ha1, rfl, h0, h1, by simp⟩,
      ⟨rfl, ha0, ha1, rfl, fun _ => h0 (by omega), fun _ => h1 (by omega), fun _ => rfl⟩, rfl, rfl⟩
  | _ + 3 => trivial

theorem gjkLoop_viewed (hT : Rigid T) (pA pB : Proxy F) (xA xB : Xf F) : ∀ (n iter : Nat) (s s' : Simplex F), SRel T s s' →
    ORel (fun x y => SRel T x.1 y.1 ∧ y.2 = x.2) (gjkLoop pA pB xA xB n iter s)
      (gjkLoop pA pB (viewed T xA) (viewed T xB) n iter s')
  | 0, iter, s, s', h => ⟨h, rfl⟩
  | n + 1, iter, s, s', h => by
    unfold gjkLoop
    simp only [h.pairs]
    refine (h.solve hT).bind fun x y hx => ?_
    rw [hx.count]
    split
    · exact ⟨hx, rfl⟩
    · rw [hx.direction hT]
      refine (ORel.map_right _ _).bind fun d d' hd => ?_
      subst hd
      rw [lengthSquared_turn hT]
      split
      · exact ⟨hx, rfl⟩
      · refine (hx.get _).bind fun o o' ho => ?_
        rw [ho, newVertex_viewed hT]
        refine (ORel.map_right _ _).bind fun v v' hv => ?_
        subst hv
        refine (hx.put v).bind fun z z' hz => ?_
        show ORel _ (if (v.indexA, v.indexB) ∈ s.pairs then _ else _) (if (v.indexA, v.indexB) ∈ s.pairs then _ else _)
        split
        · exact ⟨hz.1, rfl⟩
        · rw [hz.2.2.1, hz.2.2.2]
          exact gjkLoop_viewed hT pA pB xA xB n (iter + 1) _ _ hz.2.1

theorem SRel.u8 {s s' : Simplex F} (h : SRel T s s') (c : Cache F) (hT : Rigid T) : s'.writeCache c = s.writeCache c := by
  unfold Simplex.writeCache
  rw [h.metric hT, h.count]
  have e0 : (if 0 < s.count then s'.v0.u8 else c.i0) = if 0 < s.count then s.v0.u8 else c.i0 := by
    split
    · rw [h.u0 (by assumption)]; rfl
    · rfl
  have e1 : (if 1 < s.count then s'.v1.u8 else c.i1) = if 1 < s.count then s.v1.u8 else c.i1 := by
    split
    · rw [h.u1 (by assumption)]; rfl
    · rfl
  have e2 : (if 2 < s.count then s'.v2.u8 else c.i2) = if 2 < s.count then s.v2.u8 else c.i2 := by
    split
    · rw [h.u2 (by assumption)]; rfl
    · rfl
  rw [e0, e1, e2]

theorem carry_mix2 (T : Xf F) (a b : F) (h : a + b = 1) (p q : Vec2 F) :
    a * carry T p + b * carry T q = carry T (a * p + b * q) := by
  ext <;> simp only [carry, turnBy, Vec2.add_x, Vec2.add_y, Vec2.smul_x, Vec2.smul_y]
  · linear_combination T.p.x * h
  · linear_combination T.p.y * h

theorem carry_mix3 (T : Xf F) (a b c : F) (h : a + b + c = 1) (p q r : Vec2 F) :
    a * carry T p + b * carry T q + c * carry T r = carry T (a * p + b * q + c * r) := by
  ext <;> simp only [carry, turnBy, Vec2.add_x, Vec2.add_y, Vec2.smul_x, Vec2.smul_y]
  · linear_combination T.p.x * h
  · linear_combination T.p.y * h

theorem SRel.witness {s s' : Simplex F} (h : SRel T s s') {v : Vec2 F} (hs : Solved s v) :
    s'.witness = s.witness.map fun p => (carry T p.1, carry T p.2) := by
  obtain ⟨v0, v1, v2, n⟩ := s
  obtain ⟨w0, w1, w2, m⟩ := s'
  obtain ⟨hc, ha0, ha1, ha2, h0, h1, h2⟩ := h
  dsimp only at hc h0 h1 h2 ha0 ha1 ha2
  subst hc
  rcases hs with ⟨e, -⟩ | ⟨e, -, -, hsum, -⟩ | ⟨e, -, -, -, hsum, -⟩
  · dsimp only at e
    subst e
    simp [Simplex.witness, h0, carrySV]
  · dsimp only at e hsum
    subst e
    simp only [Simplex.witness, h0 (by omega), h1 (by omega), carrySV, carry_mix2 T _ _ hsum]
    rfl
  · dsimp only at e hsum
    subst e
    simp only [Simplex.witness, h0 (by omega), h1 (by omega), h2 (by omega), carrySV, carry_mix3 T _ _ _ hsum]
    rfl

theorem applyRadii_carry (hT : Rigid T) (o : DistanceOutput F) (rA rB : F) :
    (carryAnswer T o).applyRadii rA rB = carryAnswer T (o.applyRadii rA rB) := by
  simp only [DistanceOutput.applyRadii, carryAnswer, carry_sub, normalize_turn hT, turn_smul, carry_add_turn, carry_sub_turn,
    carry_half]
  split <;> rfl

theorem SRel.zero (T : Xf F) : SRel T (Simplex.zero : Simplex F) .zero :=
  ⟨rfl, rfl, rfl, rfl, by simp [Simplex.zero], by simp [Simplex.zero], by simp [Simplex.zero]⟩

theorem ORel.some_left {α β : Type} {R : α → β → Prop} {a : Option α} {b : Option β} (h : ORel R a b) {x : α} (ha : a = some x) :
    ∃ y, b = some y ∧ R x y := by
  subst ha
  cases b
  · exact False.elim h
  · exact ⟨_, rfl, h⟩

theorem distance_viewed (hT : Rigid T) {c c' : Cache F} {i : DistanceInput F} {o : DistanceOutput F}
    (hA : i.proxyA.vertices ≠ []) (hB : i.proxyB.vertices ≠ [])
    (hc : CacheFits c i.proxyA.vertices.length i.proxyB.vertices.length)
    (h : distance c i = some (o, c')) (hi : o.iterations < 20) :
    distance c (carryQuery T i) = some (carryAnswer T o, c') := by
  obtain ⟨s0, e0, c0, h0⟩ := readCache_spec (xA := i.xfA) (xB := i.xfB) hA hB (Simplex.zero : Simplex F) hc
  obtain ⟨s, iter, e1, _, _, c1, hs, hst⟩ := gjkLoop_spec (xA := i.xfA) (xB := i.xfB) hA hB gjkMaxIters 0 s0 c0 h0
  obtain ⟨s0', e0', r0⟩ := ((SRel.zero T).readCache hT c i.proxyA i.proxyB i.xfA i.xfB).some_left e0
  obtain ⟨⟨s', iter'⟩, e1', r1, hit⟩ := (gjkLoop_viewed hT i.proxyA i.proxyB i.xfA i.xfB gjkMaxIters 0 s0 s0' r0).some_left e1
  dsimp only at r1 hit
  subst hit
  have hw : ∃ p, s.witness = some p := by
    unfold Simplex.witness
    have : s.count = 1 ∨ s.count = 2 ∨ s.count = 3 := by omega
    rcases this with e | e | e <;> rw [e] <;> exact ⟨_, rfl⟩
  obtain ⟨p, hp⟩ := hw
  simp only [distance, e0, e1, hp, Option.bind_eq_bind, Option.bind_some] at h
  obtain ⟨c2, e2, h⟩ := Option.bind_eq_some_iff.1 h
  simp only [pure, Option.some.injEq, Prod.mk.injEq] at h
  obtain ⟨ho, hc2⟩ := h
  have hiter : iter' < 20 := by
    rw [← ho] at hi
    revert hi
    split
    · unfold DistanceOutput.applyRadii
      split <;> exact id
    · exact id
  obtain ⟨v, hv, _⟩ := hst (by rw [Nat.zero_add]; exact hiter)
  have hp' := r1.witness hv
  rw [hp] at hp'
  simp only [distance, carryQuery, e0', e1', hp', Option.map_some, Option.bind_eq_bind, Option.bind_some, r1.u8 c hT, e2,
    distanceV_carry hT]
  rw [← ho, ← hc2]
  have e : (⟨carry T p.1, carry T p.2, distanceV p.1 p.2, iter'⟩ : DistanceOutput F)
      = carryAnswer T ⟨p.1, p.2, distanceV p.1 p.2, iter'⟩ := rfl
  rw [e, applyRadii_carry hT]
  split <;> rfl

/-! ## Shape casts -/

/-- The states of two shape casts that differ by the point of view. -/
structure CRel (T : Xf F) (a b : CastState F) : Prop where
  s : SRel T a.s b.s
  v : b.v = turnBy T a.v
  n : b.n = turnBy T a.n
  lambda : b.lambda = a.lambda

theorem castPlane_viewed (hT : Rigid T) (sigma : F) (r v p : Vec2 F) {a b : CastState F} (h : CRel T a b) :
    ORel (fun x y => CRel T x y ∧ (x.s.count = 0 ∨ x.s = a.s)) (castPlane sigma r v p a)
      (castPlane sigma (turnBy T r) (turnBy T v) (turnBy T p) b) := by
  simp only [castPlane, dot_turn hT, h.lambda, turn_neg]
  split
  · split
    · trivial
    · split
      · trivial
      · exact ⟨⟨⟨rfl, h.s.a0, h.s.a1, h.s.a2, by simp, by simp, by simp⟩, rfl, rfl, rfl⟩, .inl rfl⟩
  · exact ⟨⟨h.s, rfl, h.n, rfl⟩, .inr rfl⟩

theorem castVertex_viewed (hT : Rigid T) (r wA wB : Vec2 F) (iA iB : Nat) {a b : CastState F} (h : CRel T a b) :
    castVertex b (turnBy T r) (carry T wA) (carry T wB) iA iB = carrySV T (castVertex a r wA wB iA iB) := by
  simp only [castVertex, carrySV, h.lambda, turn_smul, carry_add_turn, carry_sub]

theorem closest_viewed (hT : Rigid T) {s s' : Simplex F} (h : SRel T s s') : s'.closest = s.closest.map (turnBy T) := by
  obtain ⟨v0, v1, v2, n⟩ := s
  obtain ⟨w0, w1, w2, m⟩ := s'
  obtain ⟨hc, ha0, ha1, ha2, h0, h1, h2⟩ := h
  dsimp only at hc h0 h1 h2 ha0 ha1 ha2
  subst hc
  match m with
  | 0 => rfl
  | 1 => simp [Simplex.closest, h0, carrySV]
  | 2 => simp [Simplex.closest, h0, h1, carrySV, turn_smul, turn_add]
  | 3 => simp [Simplex.closest, turn_zero]
  | _ + 4 => rfl

theorem castLoop_viewed (hT : Rigid T) (pA pB : Proxy F) (xA xB : Xf F) (r : Vec2 F) (sigma tol : F) :
    ∀ (n iter : Nat) (a b : CastState F), CRel T a b → (a.s.count = 0 ∧ iter = 0 ∨ ∃ v, Solved a.s v) →
    ORel (ORel fun x y => CRel T x.1 y.1 ∧ y.2 = x.2 ∧ (x.2 = 0 ∨ ∃ v, Solved x.1.s v)) (castLoop pA pB xA xB r sigma tol n iter a)
      (castLoop pA pB (viewed T xA) (viewed T xB) (turnBy T r) sigma tol n iter b)
  | 0, iter, a, b, h, hs => ⟨h, rfl, hs.imp_left (·.2)⟩
  | n + 1, iter, a, b, h, hs => by
    unfold castLoop
    rw [h.v, length_turn hT, h.s.count, turn_neg, viewed_q_mulTV hT, viewed_q_mulTV hT]
    split
    · split
      · refine (ORel.refl' _).bind fun iA' iA hi => ?_
        subst hi
        refine ORel.bind (R := fun x y => y = carry T x) ?_ fun wA wA' hw => ?_
        · cases pA.vertex iA
          · trivial
          · exact viewed_mulV ..
        subst hw
        refine (ORel.refl' _).bind fun iB' iB hi => ?_
        subst hi
        refine ORel.bind (R := fun x y => y = carry T x) ?_ fun wB wB' hw => ?_
        · cases pB.vertex iB
          · trivial
          · exact viewed_mulV ..
        subst hw
        rw [normalize_turn hT, carry_sub]
        have hp := castPlane_viewed hT sigma r a.v.normalize.1 (wA - wB) h
        generalize castPlane sigma r a.v.normalize.1 (wA - wB) a = X at hp
        generalize castPlane sigma (turnBy T r) (turnBy T a.v.normalize.1) (turnBy T (wA - wB)) b = Y at hp
        match X, Y, hp with
        | none, none, _ => trivial
        | some x, some y, ⟨hxy, hx⟩ =>
          dsimp only
          rw [castVertex_viewed hT r wA wB iA iB hxy, hxy.s.count]
          have hcnt : x.s.count < 3 := by
            rcases hx with hx | hx
            · omega
            · rw [hx]; assumption
          refine (hxy.s.put _).bind fun z z' hz => ?_
          have hz1 := hz.2.1
          have e1 : ({ z with count := z.count + 1 } : Simplex F) = { z with count := x.s.count + 1 } := by rw [hz.2.2.1]
          have e2 : ({ z' with count := z'.count + 1 } : Simplex F) = { z' with count := x.s.count + 1 } := by rw [hz.2.2.2]
          rw [e1, e2]
          obtain ⟨s1, v1, es, hsol, _⟩ := solve_spec (s := { z with count := x.s.count + 1 }) ⟨by simp, by simp; omega⟩
          obtain ⟨s1', es', hr⟩ := (hz1.solve hT).some_left es
          rw [es, es']
          simp only [Option.bind_eq_bind, Option.bind_some]
          rw [hr.count]
          split
          · trivial
          · rw [closest_viewed hT hr]
            refine (ORel.map_right _ _).bind fun v v' hv => ?_
            subst hv
            exact castLoop_viewed hT pA pB xA xB r sigma tol n (iter + 1) _ _ ⟨hr, rfl, hxy.n, hxy.lambda⟩ (.inr ⟨_, hsol⟩)
      · trivial
    · exact ⟨h, rfl, hs.imp_left (·.2)⟩

theorem castStart_viewed (hT : Rigid T) (i : ShapeCastInput F) :
    ORel (fun x y => CRel T x y ∧ x.s.count = 0) (castStart i) (castStart (carryCast T i)) := by
  unfold castStart
  simp only [carryCast, turn_neg, viewed_q_mulTV hT]
  refine (ORel.refl' _).bind fun iA' iA hi => ?_
  subst hi
  refine ORel.bind (R := fun x y => y = carry T x) ?_ fun wA wA' hw => ?_
  · cases i.proxyA.vertex iA
    · trivial
    · exact viewed_mulV ..
  subst hw
  refine (ORel.refl' _).bind fun iB' iB hi => ?_
  subst hi
  refine ORel.bind (R := fun x y => y = carry T x) ?_ fun wB wB' hw => ?_
  · cases i.proxyB.vertex iB
    · trivial
    · exact viewed_mulV ..
  subst hw
  exact ⟨⟨.zero T, carry_sub .., (turn_zero T).symm, rfl⟩, rfl⟩

theorem shapeCast_viewed (hT : Rigid T) (i : ShapeCastInput F) :
    shapeCast (carryCast T i) = (shapeCast i).map (Option.map (carryCastOut T)) := by
  have key : ORel (ORel fun x y => y = carryCastOut T x) (shapeCast i) (shapeCast (carryCast T i)) := by
    unfold shapeCast
    refine (castStart_viewed hT i).bind fun x y hxy => ?_
    refine (castLoop_viewed hT i.proxyA i.proxyB i.xfA i.xfB i.translationB (castSigma i) (1 / 2 * linearSlop) gjkMaxIters 0 x y
      hxy.1 (.inl ⟨hxy.2, rfl⟩)).bind fun X Y hr => ?_
    match X, Y, hr with
    | none, none, _ => trivial
    | some (x, it), some (y, it'), ⟨hc, hit, hs⟩ =>
      dsimp only at hc hit hs ⊢
      subst hit
      split
      · trivial
      · rename_i hne
        obtain ⟨v, hv⟩ := hs.resolve_left hne
        rw [hc.s.witness hv]
        refine (ORel.map_right _ _).bind fun p p' hp => ?_
        subst hp
        simp only [hc.v, hc.n, hc.lambda, lengthSquared_turn hT, turn_neg, normalize_turn hT]
        split
        · show _ = _
          simp only [carryCast, carryCastOut, turn_smul, carry_add_turn]
        · show _ = _
          simp only [carryCast, carryCastOut, turn_smul, carry_add_turn]
  revert key
  cases shapeCast i with
  | none =>
    cases shapeCast (carryCast T i) with
    | none => intro _; rfl
    | some _ => intro h; exact False.elim h
  | some x =>
    cases shapeCast (carryCast T i) with
    | none => intro h; exact False.elim h
    | some y =>
      intro h
      cases x <;> cases y
      · rfl
      · exact False.elim h
      · exact False.elim h
      · exact congrArg (fun z => some (some z)) h

end
end B2
