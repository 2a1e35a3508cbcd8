import Verif.Props.BroadPhase

/-! What the state of the broad-phase says about its proxies and its buffer, and how they change. -/
namespace B2
set_option linter.unusedSectionVars false
open Spec

section
variable {F D : Type} [LinearOrder F] [Add F] [Sub F] [Mul F] [Lit F] [RoundLaws F]
variable {bp bp' bp'' : BroadPhase F D} {gh gh' : Nat → Option (Proxy F D)} {buf buf' : List Nat} {rep rep' : Set (Nat × Nat)}

theorem Rep.unique {m : Nat → Node F D} {p p' : Ref} {s s' : T} (h : Rep m p s) (h' : Rep m p' s') (hid : s.id = s'.id) : s = s' := by
  induction s generalizing p p' s' with
  | leaf i =>
    cases s' with
    | leaf j => cases hid; rfl
    | node j l r =>
      cases hid
      have h1 := h.2.1
      rw [h'.2.1] at h1
      cases h1
  | node i l r ihl ihr =>
    cases s' with
    | leaf j =>
      cases hid
      have h1 := h.2.1
      rw [h'.2.1] at h1
      cases h1
    | node j l' r' =>
      cases hid
      obtain ⟨-, a1, a2, -, -, a3, a4⟩ := h
      obtain ⟨-, b1, b2, -, -, b3, b4⟩ := h'
      rw [a1] at b1
      rw [a2] at b2
      rw [ihl a3 b3 (Option.some.inj b1), ihr a4 b4 (Option.some.inj b2)]

theorem RootRep.unique {t : Tree F D} {o o' : Option T} (h : RootRep t o) (h' : RootRep t o') : o = o' := by
  cases o with
  | none =>
    cases o' with
    | none => rfl
    | some s => have := h'.1; rw [show t.root = none from h] at this; cases this
  | some s =>
    cases o' with
    | none => have := h.1; rw [show t.root = none from h'] at this; cases this
    | some s' =>
      have e := h.1
      rw [h'.1] at e
      rw [h.2.unique h'.2 (Option.some.inj e).symm]

theorem Buf.Is.unique {α : Type} {b : Buf α} {l l' : List α} (h : b.Is l) (h' : b.Is l') : l = l' := by
  refine List.ext_getElem (by rw [← h.count, h'.count]) fun i h1 h2 => ?_
  rw [← h.data i h1, h'.data i h2]

/-- Two records of the same broad-phase have the same proxies and the same buffer. -/
theorem Spec.BHist.agree (h : BHist bp gh buf rep) (h' : BHist bp gh' buf' rep') :
    buf = buf' ∧ (∀ id p, gh id = some p → ∃ p', gh' id = some p' ∧ p'.data = p.data ∧ p'.fat = p.fat) ∧
      (∀ id p, gh' id = some p → ∃ p', gh id = some p' ∧ p'.data = p.data ∧ p'.fat = p.fat) := by
  have hb := bhistInv h
  have hb' := bhistInv h'
  obtain ⟨ml, m1, rfl⟩ := hb.moves
  obtain ⟨ml', m1', rfl⟩ := hb'.moves
  obtain ⟨pk, hh⟩ := hb.hist
  obtain ⟨pk', hh'⟩ := hb'.hist
  have hi := (histInv hh).inv
  have hi' := (histInv hh').inv
  have key : ∀ {g1 g2 : Nat → Option (Proxy F D)}, TInv bp.tree g1 → TInv bp.tree g2 →
      ∀ id p, g1 id = some p → ∃ p', g2 id = some p' ∧ p'.data = p.data ∧ p'.fat = p.fat := by
    intro g1 g2 h1 h2 id p hp
    have d1 := getUserData_of h1 hp
    have f1 := getFatAabb_of h1 hp
    have h2' := h2
    obtain ⟨o1, k1⟩ := h1
    obtain ⟨o2, k2⟩ := h2
    obtain rfl := k1.root.unique k2.root
    have hne : g2 id ≠ none := (k2.live id).mp ((k1.live id).mpr (by rw [hp]; simp))
    obtain ⟨p', hp'⟩ := Option.ne_none_iff_exists'.mp hne
    rw [getUserData_of h2' hp'] at d1
    rw [getFatAabb_of h2' hp'] at f1
    exact ⟨p', hp', Option.some.inj (Option.some.inj d1), Option.some.inj f1⟩
  exact ⟨by rw [m1.unique m1'], key hi hi', key hi' hi⟩

/-- Every proxy is in the buffer or is as it was before, when it was not in the buffer either. -/
def Track (gh : Nat → Option (Proxy F D)) (buf : List Nat) (gh' : Nat → Option (Proxy F D)) (buf' : List Nat) : Prop :=
  ∀ id p', gh' id = some p' → id ∈ buf' ∨ (id ∉ buf ∧ ∃ p, gh id = some p ∧ p.data = p'.data ∧ p.fat = p'.fat)

/-- Every proxy's fat box covers a box that `N` allows for it or is as it was before. -/
def Fats (N : D → AABB F → Prop) (gh gh' : Nat → Option (Proxy F D)) : Prop :=
  ∀ id p', gh' id = some p' → (∃ a, N p'.data a ∧ Covers p'.fat a) ∨ ∃ p, gh id = some p ∧ p.data = p'.data ∧ p.fat = p'.fat

/-- As `Track` and `Fats`, of the broad-phase itself. -/
structure BT (N : D → AABB F → Prop) (bp bp' : BroadPhase F D) : Prop where
  hist : (∃ gh buf rep, BHist bp gh buf rep) → ∃ gh' buf' rep', BHist bp' gh' buf' rep'
  track : ∀ gh buf rep gh' buf' rep', BHist bp gh buf rep → BHist bp' gh' buf' rep' → Track gh buf gh' buf'
  fats : ∀ gh buf rep gh' buf' rep', BHist bp gh buf rep → BHist bp' gh' buf' rep' → Fats N gh gh'

namespace BT
variable {N : D → AABB F → Prop}

theorem of (h : BHist bp gh buf rep) (h' : BHist bp' gh' buf' rep') (t : Track gh buf gh' buf') (s : Fats N gh gh') : BT N bp bp' := by
  refine ⟨fun _ => ⟨_, _, _, h'⟩, fun gh1 buf1 rep1 gh2 buf2 rep2 h1 h2 id q hq => ?_, fun gh1 buf1 rep1 gh2 buf2 rep2 h1 h2 id q hq => ?_⟩
  · obtain ⟨rfl, a2, a3⟩ := h1.agree h
    obtain ⟨rfl, b2, b3⟩ := h2.agree h'
    obtain ⟨q', c1, c2, c3⟩ := b2 id q hq
    rcases t id q' c1 with hm | ⟨hn, p, d1, d2, d3⟩
    · exact Or.inl hm
    · obtain ⟨p', e1, e2, e3⟩ := a3 id p d1
      exact Or.inr ⟨hn, p', e1, by rw [e2, d2, c2], by rw [e3, d3, c3]⟩
  · obtain ⟨rfl, a2, a3⟩ := h1.agree h
    obtain ⟨rfl, b2, b3⟩ := h2.agree h'
    obtain ⟨q', c1, c2, c3⟩ := b2 id q hq
    rcases s id q' c1 with hm | ⟨p, d1, d2, d3⟩
    · exact Or.inl (by rw [← c2, ← c3]; exact hm)
    · obtain ⟨p', e1, e2, e3⟩ := a3 id p d1
      exact Or.inr ⟨p', e1, by rw [e2, d2, c2], by rw [e3, d3, c3]⟩

theorem refl (bp : BroadPhase F D) : BT N bp bp := by
  refine ⟨id, fun gh1 buf1 rep1 gh2 buf2 rep2 h1 h2 id q hq => ?_, fun gh1 buf1 rep1 gh2 buf2 rep2 h1 h2 id q hq => Or.inr ((h1.agree h2).2.2 id q hq)⟩
  obtain ⟨rfl, a2, a3⟩ := h1.agree h2
  obtain ⟨p, e1, e2, e3⟩ := a3 id q hq
  by_cases hm : id ∈ buf1
  · exact Or.inl hm
  · exact Or.inr ⟨hm, p, e1, e2, e3⟩

theorem trans (h : BT N bp bp') (h' : BT N bp' bp'') : BT N bp bp'' := by
  refine ⟨h'.hist ∘ h.hist, fun gh1 buf1 rep1 gh2 buf2 rep2 h1 h2 id q hq => ?_, fun gh1 buf1 rep1 gh2 buf2 rep2 h1 h2 id q hq => ?_⟩
  on_goal 2 =>
    obtain ⟨gh, buf, rep, hm⟩ := h.hist ⟨_, _, _, h1⟩
    rcases h'.fats _ _ _ _ _ _ hm h2 id q hq with k | ⟨p, k2, k3, k4⟩
    · exact Or.inl k
    · rcases h.fats _ _ _ _ _ _ h1 hm id p k2 with m | ⟨p', m2, m3, m4⟩
      · exact Or.inl (by rw [← k3, ← k4]; exact m)
      · exact Or.inr ⟨p', m2, m3.trans k3, m4.trans k4⟩
  obtain ⟨gh, buf, rep, hm⟩ := h.hist ⟨_, _, _, h1⟩
  rcases h'.track _ _ _ _ _ _ hm h2 id q hq with k | ⟨k1, p, k2, k3, k4⟩
  · exact Or.inl k
  · rcases h.track _ _ _ _ _ _ h1 hm id p k2 with m | ⟨m1, p', m2, m3, m4⟩
    · exact absurd m k1
    · exact Or.inr ⟨m1, p', m2, m3.trans k3, m4.trans k4⟩

theorem mono {N' : D → AABB F → Prop} (h : BT N bp bp') (hN : ∀ d a, N d a → N' d a) : BT N' bp bp' :=
  ⟨h.hist, h.track, fun gh1 buf1 rep1 gh2 buf2 rep2 h1 h2 id q hq => (h.fats gh1 buf1 rep1 gh2 buf2 rep2 h1 h2 id q hq).imp_left
    fun ⟨a, k1, k2⟩ => ⟨a, hN _ _ k1, k2⟩⟩

end BT
end
end B2
