import Verif.Proofs.WorldContact

/-! Invariants about static bodies, filter flags and the begin/end callbacks, and what keeps them. -/
namespace B2
set_option linter.unusedSectionVars false
open Spec

/-- Newest first: alternating, the oldest one `true`. -/
def Alt : List Bool → Prop
  | [] => True
  | x :: l => x = !(l.headD false) ∧ Alt l

/-- Begin (`true`) and end (`false`) callbacks of contact `c`, newest first. -/
def touchLog (c : Nat) : List Event → List Bool
  | [] => []
  | ⟨.beginContact x, _⟩ :: l => if x = c then true :: touchLog c l else touchLog c l
  | ⟨.endContact x, _⟩ :: l => if x = c then false :: touchLog c l else touchLog c l
  | _ :: l => touchLog c l

/-- An event that is neither a begin nor an end. -/
def neutral : EventKind → Prop
  | .beginContact _ => False
  | .endContact _ => False
  | _ => True

theorem touchLog_append (c : Nat) (a b : List Event) : touchLog c (a ++ b) = touchLog c a ++ touchLog c b := by
  induction a with
  | nil => rfl
  | cons e a ih =>
    obtain ⟨k, lk⟩ := e
    cases k <;> simp only [List.cons_append, touchLog, ih] <;> split <;> simp

theorem touchLog_neutral (c : Nat) {a : List Event} (h : ∀ e ∈ a, neutral e.kind) : touchLog c a = [] := by
  induction a with
  | nil => rfl
  | cons e a ih =>
    have h1 := h e (by simp)
    have h2 := ih (fun e he => h e (by simp [he]))
    obtain ⟨k, lk⟩ := e
    cases k <;> first | exact h1.elim | exact h2

section
variable {F : Type} [Field F] [LinearOrder F] [IsStrictOrderedRing F] [Elem F]

/-- No static body is awake. -/
def StaticInv (w : World F) : Prop := ∀ b < w.g.nextBody, w.typeOf b = .static → (w.phys b).awake = false

/-- Contacts between bodies joined by a joint that forbids collision are flagged for filtering. -/
def FiltInv (w : World F) : Prop := ∀ c ∈ w.g.contactList, ∀ j ∈ w.g.jointList, (w.g.joints j).collideConnected = false →
  w.g.joins c (w.g.joints j).a (w.g.joints j).b → (w.cst c).filter = true

/-- The callbacks so far alternate, and say which contacts touch. -/
def EvInv (env : Env F) (w : World F) : Prop := env.listener = true → ∀ c, Alt (touchLog c w.log) ∧
  ((touchLog c w.log).headD false = true ↔ c ∈ w.g.contactList ∧ (w.cst c).touching = true)

/-- Keeps the three invariants. -/
structure Tr (env : Env F) (w w' : World F) : Prop where
  static : StaticInv w → StaticInv w'
  filt : FiltInv w → FiltInv w'
  ev : EvInv env w → EvInv env w'

theorem Tr.refl (env : Env F) (w : World F) : Tr env w w := ⟨id, id, id⟩
theorem Tr.trans {env : Env F} {w w' w'' : World F} (h : Tr env w w') (h' : Tr env w' w'') : Tr env w w'' :=
  ⟨h'.static ∘ h.static, h'.filt ∘ h.filt, h'.ev ∘ h.ev⟩

theorem StaticInv.calm {w w' : World F} (h : StaticInv w) (h1 : w'.g.nextBody = w.g.nextBody) (hc : Calm0 w w') : StaticInv w' := by
  intro b hb ht
  rw [h1] at hb
  rw [hc.type] at ht
  rw [hc.awake b ht]
  exact h b hb ht

theorem FiltInv.congr {w w' : World F} (h : FiltInv w) (h1 : ∀ c ∈ w'.g.contactList, c ∈ w.g.contactList) (h2 : ∀ j ∈ w'.g.jointList, j ∈ w.g.jointList)
    (h3 : w'.g.joints = w.g.joints) (h4 : w'.g.contacts = w.g.contacts) (h5 : ∀ f, (w'.g.fixtures f).body = (w.g.fixtures f).body)
    (h6 : ∀ c, (w.cst c).filter = true → (w'.cst c).filter = true) : FiltInv w' := by
  intro c hc j hj hcc hjo
  rw [h3] at hcc hjo
  rw [Graph.joins_congr (by rw [h4]) h5] at hjo
  exact h6 c (h c (h1 c hc) j (h2 j hj) hcc hjo)

theorem EvInv.congr {env : Env F} {w w' : World F} (h : EvInv env w) {ev : List Event} (h1 : w'.g.contactList = w.g.contactList)
    (h2 : ∀ c ∈ w.g.contactList, (w'.cst c).touching = (w.cst c).touching) (h3 : w'.log = ev ++ w.log) (h4 : ∀ e ∈ ev, neutral e.kind) : EvInv env w' := by
  intro hl c
  rw [h3, touchLog_append, touchLog_neutral c h4, List.nil_append, h1]
  obtain ⟨k1, k2⟩ := h hl c
  refine ⟨k1, k2.trans (and_congr_right fun hc => ?_)⟩
  rw [h2 c hc]

/-- A general criterion: no contact or joint appears or disappears, no touching flag changes. -/
theorem Tr.calm {env : Env F} {w w' : World F} (hc : Calm w w') (h0 : w'.g.nextBody = w.g.nextBody) (h1 : w'.g.contactList = w.g.contactList)
    (h2 : w'.g.jointList = w.g.jointList) (h3 : w'.g.joints = w.g.joints) (h4 : w'.g.contacts = w.g.contacts)
    (h5 : ∀ f, (w'.g.fixtures f).body = (w.g.fixtures f).body) {ev : List Event} (h6 : w'.log = ev ++ w.log) (h7 : ∀ e ∈ ev, neutral e.kind) :
    Tr env w w' :=
  ⟨fun h => h.calm h0 hc.toCalm0, fun h => h.congr (by rw [h1]; exact fun _ h => h) (by rw [h2]; exact fun _ h => h) h3 h4 h5
    (fun c => by rw [hc.filter]; exact id), fun h => h.congr h1 (fun c _ => hc.touching c) h6 h7⟩

theorem Tr.quiet {env : Env F} {w w' : World F} (h : Quiet w w') {ev : List Event} (h6 : w'.log = ev ++ w.log) (h7 : ∀ e ∈ ev, neutral e.kind) :
    Tr env w w' :=
  .calm h.toCalm (by rw [h.g]) (by rw [h.g]) (by rw [h.g]) (by rw [h.g]) (by rw [h.g]) (fun f => by rw [h.g]) h6 h7

theorem Tr.quiet0 {env : Env F} {w w' : World F} (h : Quiet w w') (h6 : w'.log = w.log) : Tr env w w' :=
  .quiet h (ev := []) h6 (by simp)

namespace World

theorem BpFrame.tr {N : Nat × Nat → AABB F → Prop} {env : Env F} {w w' : World F} (h : BpFrame N w w') : Tr env w w' :=
  .calm h.calm (by rw [h.g]) (by rw [h.g]) (by rw [h.g]) (by rw [h.g]) (by rw [h.g]) (fun f => by rw [h.g]) (ev := []) h.log (by simp)

theorem FixFrame.tr {N : Nat × Nat → AABB F → Prop} {env : Env F} {w w' : World F} (h : FixFrame N w w') : Tr env w w' :=
  .calm h.calm (by rw [h.g]) (by rw [h.g]) (by rw [h.g]) (by rw [h.g]) (by rw [h.g]) h.body (ev := []) h.log (by simp)

/-- Events and contacts are those of `w` with the contacts in `S`, in `l`, ended. -/
theorem touchLog_endEvents (env : Env F) (w : World F) (hl : env.listener = true) (c : Nat) (l : List Nat) (hn : l.Nodup) :
    touchLog c (endEvents env w l) = if c ∈ l ∧ (w.cst c).touching = true then [false] else [] := by
  induction l with
  | nil => simp [endEvents, touchLog]
  | cons a l ih =>
    rw [List.nodup_cons] at hn
    rw [endEvents, touchLog_append, ih hn.2]
    unfold endEvent
    by_cases ha : a = c
    · subst ha
      rw [if_neg (by simp [hn.1])]
      by_cases ht : (w.cst a).touching = true
      · simp [hl, ht, touchLog]
      · simp [ht, touchLog]
    · have hm : c ∈ a :: l ↔ c ∈ l := by simp [Ne.symm ha]
      simp only [hm]
      have : touchLog c (if env.listener = true ∧ (w.cst a).touching = true then [⟨.endContact a, w.locked⟩] else []) = [] := by
        split
        · simp [touchLog, ha]
        · rfl
      rw [this, List.append_nil]

theorem Cut.tr {env : Env F} {w w' : World F} {l : List Nat} (h : Cut w w' (fun x => x ∈ l) (endEvents env w l))
    (hn : l.Nodup) (hm : ∀ c ∈ l, c ∈ w.g.contactList) : Tr env w w' := by
  refine ⟨fun hs => hs.calm h.shrunk.nextBody h.calm.toCalm0, fun hf => hf.congr (fun c hc => ((h.shrunk.mem c).mp hc).1)
    (by rw [h.shrunk.jointList]; exact fun _ h => h) h.shrunk.joints h.shrunk.contacts (fun f => by rw [h.shrunk.fixtures])
    (fun c => by rw [h.calm.filter]; exact id), fun he hl c => ?_⟩
  obtain ⟨k1, k2⟩ := he hl c
  rw [h.log, touchLog_append, touchLog_endEvents env w hl c l hn, h.shrunk.mem, h.calm.touching]
  by_cases hc : c ∈ l ∧ (w.cst c).touching = true
  · rw [if_pos hc]
    refine ⟨⟨?_, k1⟩, ?_⟩
    · show false = !((touchLog c w.log).headD false)
      rw [k2.mpr ⟨hm c hc.1, hc.2⟩]; rfl
    · simp [hc.1]
  · rw [if_neg hc]
    refine ⟨k1, k2.trans ?_⟩
    constructor
    · rintro ⟨h1, h2⟩; exact ⟨⟨h1, fun h3 => hc ⟨h3, h2⟩⟩, h2⟩
    · rintro ⟨⟨h1, -⟩, h2⟩; exact ⟨h1, h2⟩

theorem destroyList_tr {env : Env F} {w w' : World F} {l : List Nat} (h : LinkInv w.g) (hn : l.Nodup) (hm : ∀ c ∈ l, c ∈ w.g.contactList)
    (e : l.foldlM (contactDestroy env) w = some w') : Tr env w w' := (destroyList_cut l h hn hm e).tr hn hm

theorem contactDestroy_tr {env : Env F} {w w' : World F} {c : Nat} (h : LinkInv w.g) (hm : c ∈ w.g.contactList)
    (e : w.contactDestroy env c = some w') : Tr env w w' :=
  destroyList_tr (l := [c]) h (by simp) (by simpa using hm) (by simp [e])

theorem destroyContacts_tr {env : Env F} {w w' : World F} {b : Nat} (h : LinkInv w.g)
    (e : destroyContacts env (w.g.bodies b).contacts w = some w') : Tr env w w' := by
  rw [destroyContacts_eq] at e
  refine destroyList_tr h (h.edgeNodup b) (fun c hc => ?_) e
  obtain ⟨⟨x, o⟩, h1, rfl⟩ := List.mem_map.mp hc
  exact ((h.edges b _ o).mp h1).1

theorem Extend.tr {env : Env F} {w w' : World F} (hw : LinkInv w.g) (h : Extend w w') : Tr env w w' := by
  have hty : ∀ b, w'.typeOf b = w.typeOf b := fun b => by rw [typeOf, h.body b]; rfl
  have hnew : ∀ c ∈ w'.g.contactList, c ∉ w.g.contactList → w.g.nextContact ≤ c := by
    intro c hc hn
    by_contra hlt
    exact hn ((h.old c (by omega)).2.2.mp hc)
  refine ⟨fun hs b hb ht => ?_, fun hf c hc j hj hcc hjo => ?_, fun he hl c => ?_⟩
  · rw [hty] at ht
    rw [h.phys]
    exact hs b (by rw [h.eq] at hb; exact hb) ht
  · have e1 : w'.g.jointList = w.g.jointList := by rw [h.eq]
    have e2 : w'.g.joints = w.g.joints := by rw [h.eq]
    rw [e1] at hj
    rw [e2] at hcc hjo
    by_cases hold : c ∈ w.g.contactList
    · obtain ⟨a1, a2, a3⟩ := h.old c (hw.lt c hold)
      rw [a2]
      exact hf c hold j hj hcc ((Graph.joins_congr a1 (fun f => by rw [h.fixtures])).mp hjo)
    · have := h.unjoined c hc (hnew c hc hold) _ _ hjo j hj (Or.inl ⟨rfl, rfl⟩)
      rw [hcc] at this
      cases this
  · obtain ⟨ev, h1, h2⟩ := h.log
    rw [h1, touchLog_append, touchLog_neutral c (by
      intro e he'
      obtain ⟨a, b, rfl⟩ := h2 e he'
      trivial), List.nil_append]
    obtain ⟨k1, k2⟩ := he hl c
    refine ⟨k1, k2.trans ?_⟩
    by_cases hold : c < w.g.nextContact
    · obtain ⟨a1, a2, a3⟩ := h.old c hold
      rw [a2, a3]
    · constructor
      · rintro ⟨hc, -⟩; exact absurd (hw.lt c hc) hold
      · rintro ⟨hc, ht⟩
        have := (h.new c hc (by omega)).1
        rw [this] at ht
        cases ht

theorem contactUpdate_tr {env : Env F} {w w' : World F} {c : Nat} (hc : c ∈ w.g.contactList) (h : w.contactUpdate env c = some w') : Tr env w w' := by
  obtain ⟨f, cm, ht, hlog⟩ := contactUpdate_spec h
  refine ⟨fun hs => hs.calm (by rw [f.g]) cm, fun hf => hf.congr (by rw [f.g]; exact fun _ h => h) (by rw [f.g]; exact fun _ h => h) (by rw [f.g]) (by rw [f.g])
    (fun _ => by rw [f.g]) (fun c => by rw [cm.filter]; exact id), fun he hl x => ?_⟩
  obtain ⟨k1, k2⟩ := he hl x
  rw [hlog, touchLog_append, f.g]
  by_cases hx : x = c
  · subst hx
    have k3 : (touchLog x w.log).headD false = (w.cst x).touching := by
      rw [Bool.eq_iff_iff, k2]; simp [hc]
    unfold updateEvents
    rw [if_pos hl]
    simp only [hc, true_and]
    have aux : ∀ (m n s : Bool) (L : List Bool), Alt L → L.headD false = m →
        Alt (touchLog x ((if s = false ∧ n = true then [⟨.preSolve x, w.locked⟩] else []) ++ (if m = true ∧ n = false then [⟨.endContact x, w.locked⟩] else []) ++
          (if m = false ∧ n = true then [⟨.beginContact x, w.locked⟩] else [])) ++ L) ∧
        ((touchLog x ((if s = false ∧ n = true then [⟨.preSolve x, w.locked⟩] else []) ++ (if m = true ∧ n = false then [⟨.endContact x, w.locked⟩] else []) ++
          (if m = false ∧ n = true then [⟨.beginContact x, w.locked⟩] else [])) ++ L).headD false = true ↔ n = true) := by
      intro m n s L hL hh
      rw [List.headD_eq_head?_getD] at hh
      cases m <;> cases n <;> cases s <;> simp [touchLog, Alt, hL, hh]
    exact aux _ _ _ _ k1 k3
  · have : touchLog x (updateEvents env c w.locked (w.cst c).touching (w'.cst c).touching (w.sensorContact c)) = [] := by
      unfold updateEvents
      rw [if_pos hl, touchLog_append, touchLog_append]
      split <;> split <;> split <;> simp [touchLog, Ne.symm hx]
    rw [this, List.nil_append, ht x hx]
    exact ⟨k1, k2⟩

end World
end
end B2
