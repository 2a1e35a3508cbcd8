import Verif.Proofs.BroadPhaseTrack
import Verif.Proofs.WorldGraph
import Verif.Proofs.Shapes

/-! Proxies of fixtures and the broad-phase. -/
namespace B2
set_option linter.unusedSectionVars false
open Spec

section
variable {F D : Type} [LinearOrder F] [Add F] [Sub F] [Mul F] [Lit F] [RoundLaws F]
variable {bp : BroadPhase F D} {gh : Nat → Option (Proxy F D)} {buf : List Nat} {rep : Set (Nat × Nat)}

theorem bcreate (h : BHist bp gh buf rep) (box : AABB F) (d : D) :
    ∃ bp' id fat, bp.createProxy box d = some (bp', id) ∧ gh id = none ∧
      BHist bp' (upd gh id (some ⟨d, box, fat, true⟩)) (buf ++ [id]) rep := by
  have hb := bhistInv h
  obtain ⟨peak, hh⟩ := hb.hist
  have hi := histInv hh
  obtain ⟨t1, id1, a1, a2, a3, -⟩ := createProxy_spec hi.inv box d
  obtain ⟨m, m1, -⟩ := bufferMove_spec (bp := { bp with tree := t1, proxyCount := bp.proxyCount + 1 }) hb.moves hb.movesCap id1
  have e : bp.createProxy box d = some ({ bp with tree := t1, proxyCount := bp.proxyCount + 1, moves := m }, id1) := by
    simp only [BroadPhase.createProxy, a1, Option.bind_eq_bind, Option.bind_some, m1]; rfl
  exact ⟨_, _, _, e, a2, .create h e a3⟩

theorem bdestroy (h : BHist bp gh buf rep) {id : Nat} (hid : gh id ≠ none) :
    ∃ bp', bp.destroyProxy id = some bp' ∧
      BHist bp' (upd gh id none) (buf.filter (· ≠ id)) {q ∈ rep | q.1 ≠ id ∧ q.2 ≠ id} := by
  obtain ⟨bp', e⟩ := ((Props.c15_broad_phase_never_panics h).2.1 id hid).1
  exact ⟨bp', e, .destroy h hid e⟩

theorem btouch (h : BHist bp gh buf rep) {id : Nat} (hid : gh id ≠ none) :
    ∃ bp', bp.touchProxy id = some bp' ∧ BHist bp' gh (buf ++ [id]) rep := by
  obtain ⟨bp', e⟩ := ((Props.c15_broad_phase_never_panics h).2.1 id hid).2.1
  exact ⟨bp', e, .touch h hid e⟩

theorem bmove (h : BHist bp gh buf rep) {id : Nat} {p : Proxy F D} (hid : gh id = some p) (box : AABB F) (disp : Vec2 F) :
    ∃ bp' p' buf', bp.moveProxy id box disp = some bp' ∧ (p'.data = p.data ∧ p'.box = box) ∧ (∀ i ∈ buf, i ∈ buf') ∧
      (p'.fat = p.fat ∨ id ∈ buf') ∧ BHist bp' (upd gh id (some p')) buf' rep := by
  have hb := bhistInv h
  obtain ⟨peak, hh⟩ := hb.hist
  have hi := histInv hh
  obtain ⟨t', b, a1, a2, a3, a4⟩ := moveProxy_spec hi.inv hid box disp (by have := hi.cap_lo; omega)
  obtain ⟨m, m1, -⟩ := bufferMove_spec (bp := { bp with tree := t' }) hb.moves hb.movesCap id
  cases b with
  | false =>
    have e : bp.moveProxy id box disp = some { bp with tree := t' } := by
      simp only [BroadPhase.moveProxy, a1, Option.bind_eq_bind, Option.bind_some]; rfl
    obtain ⟨rfl, -⟩ := a3 rfl
    have hf := getFatAabb_of hi.inv hid
    exact ⟨_, { p with box := box, fat := p.fat, moved := p.moved || false }, buf, e, ⟨rfl, rfl⟩, fun _ h => h, Or.inl rfl,
      .move h hid e a1 hf⟩
  | true =>
    have e : bp.moveProxy id box disp = some { bp with tree := t', moves := m } := by
      simp only [BroadPhase.moveProxy, a1, Option.bind_eq_bind, Option.bind_some, if_true]; exact m1
    have hf := getFatAabb_of (a4 rfl) (i := id) (upd_same _ _ _)
    exact ⟨_, { p with box := box, fat := Tree.fatMoved box disp, moved := p.moved || true }, buf ++ [id], e, ⟨rfl, rfl⟩, by simp +contextual, Or.inr (by simp),
      .move h hid e a1 hf⟩

theorem boverlap (h : BHist bp gh buf rep) {i j : Nat} {p q : Proxy F D} (hi : gh i = some p) (hj : gh j = some q) :
    bp.testOverlap i j = some (AABB.overlap p.fat q.fat) := by
  obtain ⟨peak, hh⟩ := (bhistInv h).hist
  have hi' := histInv hh
  simp [BroadPhase.testOverlap, getFatAabb_of hi'.inv hi, getFatAabb_of hi'.inv hj]

theorem bupdate (h : BHist bp gh buf rep) : ∃ (pairs : List (Nat × Nat)) (bp' : BroadPhase F D) (rep' : Set (Nat × Nat)),
    (∀ (C : Type) (addPair : C → Option D → Option D → C) (c : C), bp.updatePairs addPair c =
        some (bp', pairs.foldl (fun c q => addPair c ((gh q.1).map (·.data)) ((gh q.2).map (·.data))) c)) ∧
      (∀ i j p q, i < j → gh i = some p → gh j = some q → Meets p.fat q.fat → i ∈ buf ∨ j ∈ buf → (i, j) ∈ pairs) ∧
      (∀ q ∈ pairs, q.1 ≠ q.2 ∧ ∃ p1 p2, gh q.1 = some p1 ∧ gh q.2 = some p2) ∧
      BHist bp' (fun i => (gh i).map fun p => { p with moved := false }) [] rep' := by
  obtain ⟨pairs, bp', h1, h2, h3, -⟩ := Props.c15_c16_c17_update_pairs h
  refine ⟨pairs, bp', _, h1, h2, ?_, .update h (h1 _ _ _)⟩
  rintro ⟨i, j⟩ hq
  obtain ⟨h4, -, p, q, h5, h6, -⟩ := h3 i j hq
  exact ⟨h4.ne, p, q, h5, h6⟩

theorem bcovers (h : BHist bp gh buf rep) {id : Nat} {p : Proxy F D} (hp : gh id = some p) : Covers p.fat p.box := by
  obtain ⟨peak, hh⟩ := (bhistInv h).hist
  exact (histInv hh).covers id p hp

variable {bp' : BroadPhase F D} {rep' : Set (Nat × Nat)} {N : D → AABB F → Prop}

theorem btrack_create {id : Nat} {p : Proxy F D} (h : BHist bp gh buf rep) (h' : BHist bp' (upd gh id (some p)) (buf ++ [id]) rep')
    (hN : N p.data p.box) : BT N bp bp' := by
  refine .of h h' (fun i q hq => ?_) (fun i q hq => ?_)
  on_goal 2 =>
    by_cases hi : i = id
    · have hc := bcovers h' hq
      subst hi
      simp only [upd_same, Option.some.injEq] at hq
      subst hq
      exact Or.inl ⟨_, hN, hc⟩
    · rw [upd_other _ _ hi] at hq
      exact Or.inr ⟨q, hq, rfl, rfl⟩
  by_cases hi : i = id
  · exact Or.inl (by simp [hi])
  · rw [upd_other _ _ hi] at hq
    by_cases hm : i ∈ buf
    · exact Or.inl (by simp [hm])
    · exact Or.inr ⟨hm, q, hq, rfl, rfl⟩

theorem btrack_destroy {id : Nat} (h : BHist bp gh buf rep) (h' : BHist bp' (upd gh id none) (buf.filter (· ≠ id)) rep') : BT N bp bp' := by
  refine .of h h' (fun i q hq => ?_) (fun i q hq => ?_)
  on_goal 2 =>
    by_cases hi : i = id
    · subst hi
      simp at hq
    · rw [upd_other _ _ hi] at hq
      exact Or.inr ⟨q, hq, rfl, rfl⟩
  by_cases hi : i = id
  · subst hi
    simp at hq
  · rw [upd_other _ _ hi] at hq
    by_cases hm : i ∈ buf
    · exact Or.inl (by simp [hm, hi])
    · exact Or.inr ⟨hm, q, hq, rfl, rfl⟩

theorem btrack_touch {id : Nat} (h : BHist bp gh buf rep) (h' : BHist bp' gh (buf ++ [id]) rep') : BT N bp bp' := by
  refine .of h h' (fun i q hq => ?_) (fun i q hq => Or.inr ⟨q, hq, rfl, rfl⟩)
  by_cases hm : i ∈ buf
  · exact Or.inl (by simp [hm])
  · exact Or.inr ⟨hm, q, hq, rfl, rfl⟩

theorem btrack_move {id : Nat} {p p' : Proxy F D} {buf' : List Nat} (h : BHist bp gh buf rep) (hp : gh id = some p) (hd : p'.data = p.data)
    (hb : ∀ i ∈ buf, i ∈ buf') (hf : p'.fat = p.fat ∨ id ∈ buf') (h' : BHist bp' (upd gh id (some p')) buf' rep')
    {a : AABB F} (hN : N p'.data a) (hc : ∀ o, Covers o p'.box → Covers o a) : BT N bp bp' := by
  refine .of h h' (fun i q hq => ?_) (fun i q hq => ?_)
  on_goal 2 =>
    by_cases hi : i = id
    · have hv := bcovers h' hq
      subst hi
      simp only [upd_same, Option.some.injEq] at hq
      subst hq
      exact Or.inl ⟨_, hN, hc _ hv⟩
    · rw [upd_other _ _ hi] at hq
      exact Or.inr ⟨q, hq, rfl, rfl⟩
  by_cases hm : i ∈ buf
  · exact Or.inl (hb i hm)
  by_cases hi : i = id
  · subst hi
    simp only [upd_same, Option.some.injEq] at hq
    subst hq
    rcases hf with hf | hf
    · exact Or.inr ⟨hm, p, hp, hd.symm, hf.symm⟩
    · exact Or.inl hf
  · rw [upd_other _ _ hi] at hq
    exact Or.inr ⟨hm, q, hq, rfl, rfl⟩

end

section
variable {F : Type} [Field F] [LinearOrder F] [IsStrictOrderedRing F] [Elem F]

/-- The proxies in the broad-phase are exactly those of the fixture children in `L`; `gh`, `buf`, `rep` as in `BHist`. -/
structure PI (fx : Nat → FixS F) (bp : BroadPhase F (Nat × Nat)) (L : Nat → Nat → Prop)
    (gh : Nat → Option (Proxy F (Nat × Nat))) (buf : List Nat) (rep : Set (Nat × Nat)) : Prop where
  hist : BHist bp gh buf rep
  has : ∀ f i, L f i → ∃ id p, (fx f).proxies[i]? = some ⟨some f, i, some id⟩ ∧ gh id = some p ∧ p.data = (f, i)
  only : ∀ id p, gh id = some p → L p.data.1 p.data.2 ∧
    (fx p.data.1).proxies[p.data.2]? = some ⟨some p.data.1, p.data.2, some id⟩

theorem PI.congr {fx fx' : Nat → FixS F} {bp : BroadPhase F (Nat × Nat)} {L L' : Nat → Nat → Prop}
    {gh : Nat → Option (Proxy F (Nat × Nat))} {buf : List Nat} {rep : Set (Nat × Nat)} (h : PI fx bp L gh buf rep)
    (h1 : ∀ f, (fx' f).proxies = (fx f).proxies) (h2 : ∀ f i, L' f i ↔ L f i) : PI fx' bp L' gh buf rep := by
  refine ⟨h.hist, ?_, ?_⟩
  · intro f i hl
    rw [h1]; exact h.has f i ((h2 f i).mp hl)
  · intro id p hp
    rw [h1, h2]; exact h.only id p hp

/-- The number of proxies. -/
theorem PI.count {fx : Nat → FixS F} {bp : BroadPhase F (Nat × Nat)} {L : Nat → Nat → Prop}
    {gh : Nat → Option (Proxy F (Nat × Nat))} {buf : List Nat} {rep : Set (Nat × Nat)} (h : PI fx bp L gh buf rep) :
    bp.proxyCount = Set.ncard {x : Nat × Nat | L x.1 x.2} := by
  rw [(bhistInv h.hist).count]
  unfold nLive
  norm_cast
  have : {x : Nat × Nat | L x.1 x.2} = (fun i => ((gh i).map (·.data)).getD (0, 0)) '' {i | gh i ≠ none} := by
    ext ⟨f, i⟩
    constructor
    · intro hl
      obtain ⟨id, p, -, h2, h3⟩ := h.has f i hl
      exact ⟨id, by simp [h2], by simp [h2, h3]⟩
    · rintro ⟨id, h1, h2⟩
      obtain ⟨p, hp⟩ := Option.ne_none_iff_exists'.mp h1
      simp only [hp, Option.map_some, Option.getD_some] at h2
      have := (h.only id p hp).1
      rw [h2] at this
      exact this
  rw [this, Set.ncard_image_of_injOn]
  intro a ha b hb hab
  obtain ⟨p, hp⟩ := Option.ne_none_iff_exists'.mp ha
  obtain ⟨q, hq⟩ := Option.ne_none_iff_exists'.mp hb
  simp only [hp, hq, Option.map_some, Option.getD_some] at hab
  have h1 := (h.only a p hp).2
  have h2 := (h.only b q hq).2
  rw [hab, h2] at h1
  simpa using h1.symm

namespace World

/-- Only the broad-phase, the boxes and the proxies of fixture `f` differ. -/
structure ProxyFrame (N : Nat × Nat → AABB F → Prop) (f : Nat) (w w' : World F) : Prop where
  eq : w' = { w with g := { w.g with fixtures := w'.g.fixtures }, bp := w'.bp, paabb := w'.paabb }
  other : ∀ f', f' ≠ f → w'.g.fixtures f' = w.g.fixtures f'
  self : w'.g.fixtures f = { w.g.fixtures f with proxies := (w'.g.fixtures f).proxies }
  len : (w'.g.fixtures f).proxies.length = (w.g.fixtures f).proxies.length
  bt : BT N w.bp w'.bp

variable {N : Nat × Nat → AABB F → Prop}

theorem ProxyFrame.refl (f : Nat) (w : World F) : ProxyFrame N f w w := ⟨rfl, fun _ _ => rfl, rfl, rfl, .refl _⟩
theorem ProxyFrame.trans {f : Nat} {w w' w'' : World F} (h : ProxyFrame N f w w') (h' : ProxyFrame N f w' w'') : ProxyFrame N f w w'' :=
  ⟨by rw [h'.eq, h.eq], fun x hx => (h'.other x hx).trans (h.other x hx), by
    have e := h'.self
    rw [h.self] at e
    exact e, h'.len.trans h.len, h.bt.trans h'.bt⟩

variable {gh : Nat → Option (Proxy F (Nat × Nat))} {buf : List Nat} {rep : Set (Nat × Nat)}

theorem setFix_frame (w : World F) (f : Nat) {bp : BroadPhase F (Nat × Nat)} {pa : Nat → Nat → AABB F} {l : List ProxyS}
    (hl : l.length = (w.g.fixtures f).proxies.length) (hb : BT N w.bp bp) :
    ProxyFrame N f w (setFix { w with bp := bp, paabb := pa } f { w.g.fixtures f with proxies := l }) := by
  refine ⟨rfl, fun x hx => upd_other _ _ hx, ?_, ?_, hb⟩
  · simp [setFix]
  · simp [setFix, hl]

theorem createProxy_spec' {w : World F} {f i : Nat} {xf : Xf F} {aabb : AABB F} {L : Nat → Nat → Prop}
    (h : PI w.g.fixtures w.bp L gh buf rep) (hi : i < (w.g.fixtures f).proxies.length)
    (ha : (w.g.fixtures f).shape.computeAabb xf i = some aabb) (hL : ¬ L f i) (hN : N (f, i) aabb) :
    ∃ w' gh' buf', createProxy f xf w i = some w' ∧ ProxyFrame N f w w' ∧
      PI w'.g.fixtures w'.bp (fun a b => L a b ∨ (a = f ∧ b = i)) gh' buf' rep := by
  obtain ⟨bp', id, fat, e1, e2, e3⟩ := bcreate h.hist aabb (f, i)
  refine ⟨setFix { w with bp := bp', paabb := upd w.paabb f (upd (w.paabb f) i aabb) } f
    { w.g.fixtures f with proxies := (w.g.fixtures f).proxies.set i ⟨some f, i, some id⟩ },
    upd gh id (some ⟨(f, i), aabb, fat, true⟩), buf ++ [id], ?_, setFix_frame w f (by simp) (btrack_create h.hist e3 hN), ⟨e3, ?_, ?_⟩⟩
  · unfold createProxy
    simp only [List.getElem?_eq_getElem hi, ha, e1, Option.bind_eq_bind, Option.bind_some]
    rfl
  · intro a b hab
    by_cases hf : a = f
    · subst hf
      by_cases hb : b = i
      · subst hb
        exact ⟨id, _, by simp [setFix, hi], upd_same _ _ _, rfl⟩
      · rcases hab with hab | ⟨-, hab⟩
        · obtain ⟨id', p, h1, h2, h3⟩ := h.has a b hab
          refine ⟨id', p, ?_, ?_, h3⟩
          · simp only [setFix, upd_same, List.getElem?_set, Ne.symm hb, if_false]
            exact h1
          · rw [upd_other _ _ (by rintro rfl; rw [e2] at h2; cases h2)]; exact h2
        · exact absurd hab hb
    · rcases hab with hab | ⟨hab, -⟩
      · obtain ⟨id', p, h1, h2, h3⟩ := h.has a b hab
        refine ⟨id', p, ?_, ?_, h3⟩
        · simp only [setFix, upd_other _ _ hf]
          exact h1
        · rw [upd_other _ _ (by rintro rfl; rw [e2] at h2; cases h2)]; exact h2
      · exact absurd hab hf
  · intro id' p hp
    by_cases hid : id' = id
    · subst hid
      simp only [upd_same, Option.some.injEq] at hp
      subst hp
      exact ⟨Or.inr ⟨rfl, rfl⟩, by simp [setFix, hi]⟩
    · rw [upd_other _ _ hid] at hp
      obtain ⟨h1, h2⟩ := h.only id' p hp
      refine ⟨Or.inl h1, ?_⟩
      by_cases hf : p.data.1 = f
      · have hne : i ≠ p.data.2 := by
          rintro rfl
          rw [hf] at h1
          exact hL h1
        rw [hf] at h2 ⊢
        simp only [setFix, upd_same, List.getElem?_set, hne, if_false]
        exact h2
      · simp only [setFix, upd_other _ _ hf]
        exact h2

theorem destroyProxy_spec' {w : World F} {f i : Nat} {L : Nat → Nat → Prop}
    (h : PI w.g.fixtures w.bp L gh buf rep) (hL : L f i) :
    ∃ w' gh' buf' rep', destroyProxy f w i = some w' ∧ ProxyFrame N f w w' ∧
      PI w'.g.fixtures w'.bp (fun a b => L a b ∧ ¬ (a = f ∧ b = i)) gh' buf' rep' := by
  obtain ⟨id, p, h1, h2, h3⟩ := h.has f i hL
  obtain ⟨bp', e1, e2⟩ := bdestroy h.hist (id := id) (by rw [h2]; simp)
  refine ⟨setFix { w with bp := bp' } f { w.g.fixtures f with proxies := (w.g.fixtures f).proxies.set i ⟨some f, i, none⟩ },
    _, _, _, ?_, setFix_frame w f (by simp) (btrack_destroy h.hist e2), ⟨e2, ?_, ?_⟩⟩
  · unfold destroyProxy
    simp only [h1, e1, Option.bind_eq_bind, Option.bind_some]
    rfl
  · rintro a b ⟨hab, hne⟩
    obtain ⟨id', q, k1, k2, k3⟩ := h.has a b hab
    have hid : id' ≠ id := by
      rintro rfl
      rw [h2] at k2
      cases k2
      rw [h3] at k3
      exact hne ⟨(Prod.mk.inj k3).1.symm, (Prod.mk.inj k3).2.symm⟩
    refine ⟨id', q, ?_, by rw [upd_other _ _ hid]; exact k2, k3⟩
    by_cases hf : a = f
    · subst hf
      have hb : i ≠ b := fun hb => hne ⟨rfl, hb.symm⟩
      simp only [setFix, upd_same, List.getElem?_set, hb, if_false]
      exact k1
    · simp only [setFix, upd_other _ _ hf]
      exact k1
  · intro id' q hq
    have hid : id' ≠ id := by
      rintro rfl
      simp at hq
    rw [upd_other _ _ hid] at hq
    obtain ⟨k1, k2⟩ := h.only id' q hq
    have hne : ¬ (q.data.1 = f ∧ q.data.2 = i) := by
      rintro ⟨rfl, rfl⟩
      rw [h1] at k2
      simp only [Option.some.injEq, ProxyS.mk.injEq, true_and] at k2
      exact hid k2.symm
    refine ⟨⟨k1, hne⟩, ?_⟩
    by_cases hf : q.data.1 = f
    · rw [hf] at k2 ⊢
      have hb : i ≠ q.data.2 := fun hb => hne ⟨hf, hb.symm⟩
      simp only [setFix, upd_same, List.getElem?_set, hb, if_false]
      exact k2
    · simp only [setFix, upd_other _ _ hf]
      exact k2

/-- Only the broad-phase and the boxes differ. -/
structure BpFrame (N : Nat × Nat → AABB F → Prop) (w w' : World F) : Prop where
  eq : w' = { w with bp := w'.bp, paabb := w'.paabb }
  bt : BT N w.bp w'.bp

theorem BpFrame.refl (w : World F) : BpFrame N w w := ⟨rfl, .refl _⟩
theorem BpFrame.trans {w w' w'' : World F} (h : BpFrame N w w') (h' : BpFrame N w' w'') : BpFrame N w w'' := ⟨by rw [h'.eq, h.eq], h.bt.trans h'.bt⟩
theorem BpFrame.g {w w' : World F} (h : BpFrame N w w') : w'.g = w.g := by rw [h.eq]
theorem BpFrame.log {w w' : World F} (h : BpFrame N w w') : w'.log = w.log := by rw [h.eq]
theorem BpFrame.rest {w w' : World F} (h : BpFrame N w w') : Rest w w' := ⟨by rw [h.eq]⟩
theorem BpFrame.phys {w w' : World F} (h : BpFrame N w w') : w'.phys = w.phys := by rw [h.eq]
theorem BpFrame.cst {w w' : World F} (h : BpFrame N w w') : w'.cst = w.cst := by rw [h.eq]
theorem BpFrame.calm {w w' : World F} (h : BpFrame N w w') : Calm w w' := by
  have hg := h.g
  have hp := h.phys
  have hc := h.cst
  have hj : w'.jIsland = w.jIsland := by rw [h.eq]
  exact ⟨⟨fun _ => by rw [hc], hj, fun _ => by rw [hp], fun _ => by rw [hp], fun _ => by rw [hp],
    fun b => by rw [typeOf, hg]; rfl, fun _ _ => by rw [hp]⟩, fun _ => by rw [hc]⟩

theorem covers_right {o a b : AABB F} (h : Covers o (AABB.combine a b)) : Covers o b := by
  simp only [Covers, AABB.combine, minV, maxV, b2min_eq, b2max_eq] at *
  obtain ⟨h1, h2, h3, h4⟩ := h
  exact ⟨h1.trans (min_le_right _ _), h2.trans (min_le_right _ _), (le_max_right _ _).trans h3, (le_max_right _ _).trans h4⟩

/-- The proxies of the ids in `gh` after the fat boxes of some have changed and those have been buffered. -/
theorem synchronizeProxy_spec {w : World F} {f i : Nat} {xf1 xf2 : Xf F} {a1 a2 : AABB F} {L : Nat → Nat → Prop}
    (h : PI w.g.fixtures w.bp L gh buf rep) (hL : L f i)
    (h1 : (w.g.fixtures f).shape.computeAabb xf1 i = some a1) (h2 : (w.g.fixtures f).shape.computeAabb xf2 i = some a2) (hN : N (f, i) a2) :
    ∃ w' gh' buf', synchronizeProxy f xf1 xf2 w i = some w' ∧ BpFrame N w w' ∧ PI w'.g.fixtures w'.bp L gh' buf' rep := by
  obtain ⟨id, p, k1, k2, k3⟩ := h.has f i hL
  obtain ⟨bp', p', buf', e1, ⟨e2, e2'⟩, e3, e4, e5⟩ := bmove h.hist k2 (AABB.combine a1 a2) (a2.center - a1.center)
  refine ⟨{ w with bp := bp', paabb := upd w.paabb f (upd (w.paabb f) i (AABB.combine a1 a2)) }, upd gh id (some p'), buf', ?_, ⟨rfl, btrack_move h.hist k2 e2 e3 e4 e5 (a := a2) (by rw [e2, k3]; exact hN) (by rw [e2']; exact fun o => covers_right)⟩, e5, ?_, ?_⟩
  · unfold synchronizeProxy
    simp only [k1, h1, h2, e1, Option.bind_eq_bind, Option.bind_some]
    rfl
  · intro a b hab
    obtain ⟨id', q, m1, m2, m3⟩ := h.has a b hab
    by_cases hid : id' = id
    · subst hid
      refine ⟨id', p', m1, upd_same _ _ _, ?_⟩
      rw [k2] at m2
      cases m2
      rw [e2, m3]
    · exact ⟨id', q, m1, by rw [upd_other _ _ hid]; exact m2, m3⟩
  · intro id' q hq
    by_cases hid : id' = id
    · subst hid
      simp only [upd_same, Option.some.injEq] at hq
      subst hq
      rw [e2]
      exact h.only id' p k2
    · rw [upd_other _ _ hid] at hq
      exact h.only id' q hq

theorem touchOne_spec {w : World F} {f i : Nat} {L : Nat → Nat → Prop}
    (h : PI w.g.fixtures w.bp L gh buf rep) (hL : L f i) :
    ∃ w' id, gh id ≠ none ∧ (∀ id' p, gh id' = some p → p.data = (f, i) → id' = id) ∧ (do
      let p ← (w.g.fixtures f).proxies[i]?
      let id ← p.proxyId
      let bp ← w.bp.touchProxy id
      return { w with bp := bp } : Option (World F)) = some w' ∧ BpFrame N w w' ∧ PI w'.g.fixtures w'.bp L gh (buf ++ [id]) rep := by
  obtain ⟨id, p, k1, k2, k3⟩ := h.has f i hL
  obtain ⟨bp', e1, e2⟩ := btouch h.hist (id := id) (by rw [k2]; simp)
  refine ⟨{ w with bp := bp' }, id, by rw [k2]; simp, fun id' p' g1 g2 => ?_, ?_, ⟨rfl, btrack_touch h.hist e2⟩, e2, h.has, h.only⟩
  · have := (h.only id' p' g1).2
    rw [g2] at this
    rw [show (w.g.fixtures (f, i).1).proxies[(f, i).2]? = (w.g.fixtures f).proxies[i]? from rfl, k1] at this
    injection this with this
    injection this with _ _ this
    injection this with this
    exact this.symm
  simp only [k1, e1, Option.bind_eq_bind, Option.bind_some]
  rfl

end World
end
end B2
