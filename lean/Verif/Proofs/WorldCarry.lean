import Verif.Proofs.WorldTr

/-! What a call leaves in place for the search for new contacts. -/
namespace B2
set_option linter.unusedSectionVars false
open Spec

section
variable {F : Type} [Field F] [LinearOrder F] [IsStrictOrderedRing F] [Elem F]

/-- Every proxy that is not in the move buffer of `w'` and not of a fixture in `T` stands in `w'` for the contact search as it did in `w`.
`D` is the relation of bodies whose joints may have been destroyed. -/
structure Carry (N : Nat × Nat → AABB F → Prop) (D : Nat → Nat → Prop) (T : Nat → Prop) (w w' : World F) : Prop where
  bt : BT N w.bp w'.bp
  touched : ∀ gh buf rep, BHist w'.bp gh buf rep → ∀ id p, gh id = some p → T p.data.1 → id ∈ buf
  body : ∀ f b b', (w.g.fixtures f).body = some b → (w'.g.fixtures f).body = some b' → b' = b
  type : ∀ f b, ¬ T f → (w.g.fixtures f).body = some b → b ∈ w.g.bodyList → b ∈ w'.g.bodyList → (w'.g.bodies b).type = (w.g.bodies b).type
  joint : ∀ j ∈ w.g.jointList, (w.g.joints j).collideConnected = false → (w.g.joints j).a ∈ w'.g.bodyList → (w.g.joints j).b ∈ w'.g.bodyList →
    (j ∈ w'.g.jointList ∧ w'.g.joints j = w.g.joints j) ∨ D (w.g.joints j).a (w.g.joints j).b
  filter : ∀ f b, ¬ T f → (w.g.fixtures f).body = some b → (w'.fattr f).filter = (w.fattr f).filter
  contact : ∀ c ∈ w.g.contactList, ¬ T (w.g.contacts c).fA → ¬ T (w.g.contacts c).fB →
    ∀ a b, (w'.g.fixtures (w.g.contacts c).fA).body = some a → (w'.g.fixtures (w.g.contacts c).fB).body = some b →
    a ∈ w'.g.bodyList → b ∈ w'.g.bodyList → (w'.g.bodies a).enabled = true → (w'.g.bodies b).enabled = true →
    c ∈ w'.g.contactList ∧ w'.g.contacts c = w.g.contacts c
  shape : ∀ f b b', (w.g.fixtures f).body = some b → (w'.g.fixtures f).body = some b' → (w'.g.fixtures f).shape = (w.g.fixtures f).shape

/-- Nothing but the broad phase changed. -/
theorem Carry.of_g {N : Nat × Nat → AABB F → Prop} {D : Nat → Nat → Prop} {T : Nat → Prop} {w w' : World F} (hb : BT N w.bp w'.bp) (hg : w'.g = w.g)
    (ht : ∀ gh buf rep, BHist w'.bp gh buf rep → ∀ id p, gh id = some p → T p.data.1 → id ∈ buf)
    (hf : ∀ f, ¬ T f → (w'.fattr f).filter = (w.fattr f).filter) : Carry N D T w w' := by
  refine ⟨hb, ht, ?_, ?_, ?_, fun f _ h _ => hf f h, ?_, fun _ _ _ _ _ => ?_⟩ <;> rw [hg]
  · intro f b b' h h'
    rw [h] at h'
    exact (Option.some.inj h').symm
  · intros; rfl
  · intro j h _ _ _; exact Or.inl ⟨h, rfl⟩
  · intro c h _ _ _ _ _ _ _ _ _ _; exact ⟨h, rfl⟩

theorem WFrame.carry {N : Nat × Nat → AABB F → Prop} {D : Nat → Nat → Prop} {w w' : World F} (h : WFrame w w') : Carry N D (fun _ => False) w w' :=
  .of_g (by rw [h.bp]; exact .refl _) h.g (fun _ _ _ _ _ _ _ h => h.elim) (fun f _ => h.filter f)

theorem World.BpFrame.carry {N : Nat × Nat → AABB F → Prop} {D : Nat → Nat → Prop} {w w' : World F} (h : World.BpFrame N w w') : Carry N D (fun _ => False) w w' :=
  .of_g h.bt h.g (fun _ _ _ _ _ _ _ h => h.elim) (fun f _ => by rw [h.eq])

theorem Carry.frame {N : Nat × Nat → AABB F → Prop} {D : Nat → Nat → Prop} {T : Nat → Prop} {w w' w'' : World F} (h : Carry N D T w w') (hg : w''.g = w'.g) (hb : w''.bp = w'.bp)
    (hf : ∀ f, (w''.fattr f).filter = (w'.fattr f).filter) : Carry N D T w w'' := by
  refine ⟨by rw [hb]; exact h.bt, by rw [hb]; exact h.touched, ?_, ?_, ?_, fun f b h1 h2 => (hf f).trans (h.filter f b h1 h2), ?_, ?_⟩ <;> rw [hg]
  · exact h.body
  · exact h.type
  · exact h.joint
  · exact h.contact
  · exact h.shape

end
end B2
