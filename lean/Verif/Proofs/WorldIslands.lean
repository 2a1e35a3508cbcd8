import Verif.Proofs.WorldIsland
import Verif.Proofs.WorldPoints

/-! The islands of one call of `solve`. -/
namespace B2
set_option linter.unusedSectionVars false
open World Spec

section
variable {F : Type} [Field F] [LinearOrder F] [IsStrictOrderedRing F] [Elem F]

namespace World

theorem buildIsland_spec {w : World F} (hi : GInv w.g) (he : Ends w) {seed : Nat} (h1 : (w.phys seed).island = false) (h2 : seed ∈ w.g.bodyList)
    (h3 : (w.g.bodies seed).enabled = true) :
    ∃ s, w.buildIsland seed = some s ∧ SI w seed (fun _ => False) s ∧ s.stack = [] ∧ s.island.bodies.head? = some seed ∧
      s.island.bodies.length ≤ w.g.bodyCount := by
  have hs := SI.start (w0 := w) (seed := seed) (fun _ => False) h1 h2 h3
  obtain ⟨s1, a1, a2, a3⟩ := hs.visit hi he (b := seed) (st := []) rfl
  have hl : s1.island.bodies = [seed] := a3
  obtain ⟨s2, b1, b2, b3, b4⟩ := a2.search hi he w.g.bodyCount (by rw [hl, List.length_singleton])
  refine ⟨s2, ?_, b2, b3, ?_, ?_⟩
  · unfold buildIsland World.search
    dsimp only
    exact (congrArg (fun o => Option.bind o (World.search w.g.bodyCount)) a1).trans b1
  · obtain ⟨t, ht⟩ := b4
    rw [← ht, hl]; rfl
  · rw [hi.body.count]
    have hn := b2.nodup
    rw [b3, List.append_nil] at hn
    exact (hn.subperm (fun b hb => (b2.fresh b (by simp [hb])).2.1)).length_le

/-- No two islands share a non-static body, a contact or a joint. -/
def Apart (w : World F) (I J : Island) : Prop :=
  (∀ b ∈ I.bodies, b ∈ J.bodies → (w.g.bodies b).type = .static) ∧ (∀ c ∈ I.contacts, c ∉ J.contacts) ∧ (∀ j ∈ I.joints, j ∉ J.joints)

/-- The state between two seeds: the islands so far are `isls`. -/
structure GI (w1 w : World F) (isls : List Island) : Prop where
  g : w.g = w1.g
  flag : ∀ b ∈ w1.g.bodyList, (w.phys b).island = true ↔ (w1.g.bodies b).type ≠ .static ∧ ∃ I ∈ isls, b ∈ I.bodies
  cflag : ∀ c ∈ w1.g.contactList, (w.cst c).island = true ↔ ∃ I ∈ isls, c ∈ I.contacts
  jflag : ∀ j ∈ w1.g.jointList, w.jIsland j = true ↔ ∃ I ∈ isls, j ∈ I.joints
  bodies : ∀ I ∈ isls, I.bodies.Nodup ∧ ∀ b ∈ I.bodies, b ∈ w1.g.bodyList ∧ (w1.g.bodies b).enabled = true
  contacts : ∀ I ∈ isls, I.contacts.Nodup ∧ ∀ c ∈ I.contacts, c ∈ w1.g.contactList
  joints : ∀ I ∈ isls, I.joints.Nodup ∧ ∀ j ∈ I.joints, j ∈ w1.g.jointList
  apart : isls.Pairwise (Apart w1)
  ends : Ends w

/-- What holds besides if the callbacks leave the links alone. -/
structure CI (w1 w : World F) (isls : List Island) : Prop where
  kept : Kept w1 w
  closedC : ∀ I ∈ isls, ∀ x ∈ I.bodies, (w1.g.bodies x).type ≠ .static → ∀ c y, Transmits w1 c → Connects w1 c x y → c ∈ I.contacts ∧ y ∈ I.bodies
  closedJ : ∀ I ∈ isls, ∀ x ∈ I.bodies, (w1.g.bodies x).type ≠ .static → ∀ j y, Ties w1 j x y → j ∈ I.joints ∧ y ∈ I.bodies

/-- What holds besides if the callbacks are calm. -/
structure TI (w1 w : World F) (isls : List Island) (seen : List Nat) : Prop extends CI w1 w isls where
  awake : ∀ b ∈ w1.g.bodyList, (w1.g.bodies b).type ≠ .static → (w.phys b).island = false → (w.phys b).awake = (w1.phys b).awake
  reach : ∀ I ∈ isls, ∃ seed ∈ I.bodies, (w1.phys seed).awake = true ∧ (w1.g.bodies seed).enabled = true ∧ (w1.g.bodies seed).type ≠ .static ∧
    ∀ b ∈ I.bodies, Reach w1 seed b
  onlyC : ∀ I ∈ isls, ∀ c ∈ I.contacts, Transmits w1 c ∧ ∀ x y, Connects w1 c x y → x ∈ I.bodies
  onlyJ : ∀ I ∈ isls, ∀ j ∈ I.joints, ∃ x y, x ∈ I.bodies ∧ y ∈ I.bodies ∧ Ties w1 j x y
  covered : ∀ b ∈ seen, (w1.phys b).awake = true → (w1.g.bodies b).enabled = true → (w1.g.bodies b).type ≠ .static → (w.phys b).island = true

theorem isSeed_iff {w : World F} {b : Nat} : w.isSeed b = true ↔
    (w.phys b).island = false ∧ (w.phys b).awake = true ∧ (w.g.bodies b).enabled = true ∧ (w.g.bodies b).type ≠ .static := by
  unfold isSeed isAwake typeOf
  simp [and_assoc]

/-- One seed. -/
theorem solveSeed_spec {env : Env F} {step : TimeStep F} {w : World F} {isls : List Island} {seed : Nat} (hi : GInv w.g) (he : Ends w)
    (hm : seed ∈ w.g.bodyList) :
    (w.isSeed seed = false ∧ solveSeed env step (w, isls) seed = some (w, isls)) ∨
    (w.isSeed seed = true ∧ ∃ s, w.buildIsland seed = some s ∧ SI w seed (fun _ => False) s ∧ s.stack = [] ∧ s.island.bodies.head? = some seed ∧ s.island.bodies.length ≤ s.w.g.bodyCount ∧
      solveSeed env step (w, isls) seed = (s.w.islandSolve env s.w.g.bodyCount s.island step).map fun v => (v.releaseStatics s.island.bodies, isls ++ [s.island])) := by
  unfold solveSeed
  by_cases hs : w.isSeed seed = false
  · left; exact ⟨hs, by dsimp only; rw [if_pos hs]⟩
  · right
    rw [Bool.not_eq_false] at hs
    refine ⟨hs, ?_⟩
    obtain ⟨h1, h2, h3, h4⟩ := isSeed_iff.mp hs
    obtain ⟨s, a1, a2, a3, a4, a5⟩ := buildIsland_spec hi he h1 hm h3
    refine ⟨s, a1, a2, a3, a4, by rw [a2.kept.g]; exact a5, ?_⟩
    dsimp only
    rw [if_neg (by rw [hs]; simp), a1]
    show Option.bind (some s) _ = _
    rw [Option.bind_some]
    cases s.w.islandSolve env s.w.g.bodyCount s.island step <;> rfl

theorem GI.seed {env : Env F} {step : TimeStep F} {w1 w v : World F} {isls : List Island} {seed : Nat} {s : Search F} (h : GI w1 w isls)
    (a2 : SI w seed (fun _ => False) s) (a3 : s.stack = []) (e : s.w.islandSolve env s.w.g.bodyCount s.island step = some v) :
    GI w1 (v.releaseStatics s.island.bodies) (isls ++ [s.island]) := by
  have hc := islandSolve_calm0 e
  have hg : v.g = w1.g := by rw [(islandSolve_mild e).g, a2.kept.g, h.g]
  obtain ⟨r1, r2, r3, r4⟩ := releaseStatics_spec s.island.bodies v
  have hflag : ∀ b, (s.w.phys b).island = true ↔ (w.phys b).island = true ∨ b ∈ s.island.bodies := by
    intro b; have := a2.flag b; rw [a3, List.append_nil] at this; exact this
  have hnodup : s.island.bodies.Nodup := by have := a2.nodup; rw [a3, List.append_nil] at this; exact this
  have hfresh : ∀ b ∈ s.island.bodies, (w.phys b).island = false ∧ b ∈ w1.g.bodyList ∧ (w1.g.bodies b).enabled = true := by
    intro b hb
    obtain ⟨p, q, r, -⟩ := a2.fresh b (List.mem_append.mpr (.inl hb))
    rw [h.g] at q r
    exact ⟨p, q, r⟩
  refine ⟨by rw [r1, hg], ?_, ?_, ?_, ?_, ?_, ?_, ?_, ?_, ?_⟩
  · intro b hb
    rw [r4, hc.island, hflag, h.flag b hb, hg]
    simp only [List.mem_append, List.mem_singleton]
    constructor
    · rintro ⟨⟨p, I, hI, hbI⟩ | p, q⟩
      · exact ⟨p, I, .inl hI, hbI⟩
      · exact ⟨fun hs => q ⟨p, hs⟩, s.island, .inr rfl, p⟩
    · rintro ⟨p, I, hI | rfl, hbI⟩
      · exact ⟨.inl ⟨p, I, hI, hbI⟩, fun q => p q.2⟩
      · exact ⟨.inr hbI, fun q => p q.2⟩
  · intro c hcl
    rw [r2, hc.cisland, a2.cflag, h.cflag c hcl]
    simp only [List.mem_append, List.mem_singleton]
    constructor
    · rintro (⟨I, hI, hbI⟩ | p)
      · exact ⟨I, .inl hI, hbI⟩
      · exact ⟨s.island, .inr rfl, p⟩
    · rintro ⟨I, hI | rfl, hbI⟩
      · exact .inl ⟨I, hI, hbI⟩
      · exact .inr hbI
  · intro j hj
    rw [r3, hc.jIsland, a2.jflag, h.jflag j hj]
    simp only [List.mem_append, List.mem_singleton]
    constructor
    · rintro (⟨I, hI, hbI⟩ | p)
      · exact ⟨I, .inl hI, hbI⟩
      · exact ⟨s.island, .inr rfl, p⟩
    · rintro ⟨I, hI | rfl, hbI⟩
      · exact .inl ⟨I, hI, hbI⟩
      · exact .inr hbI
  · intro I hI
    rcases List.mem_append.mp hI with hI | hI
    · exact h.bodies I hI
    · rw [List.mem_singleton] at hI; subst hI
      exact ⟨hnodup, fun b hb => (hfresh b hb).2⟩
  · intro I hI
    rcases List.mem_append.mp hI with hI | hI
    · exact h.contacts I hI
    · rw [List.mem_singleton] at hI; subst hI
      exact ⟨a2.cnodup, fun c hc => by rw [← h.g]; exact (a2.cfresh c hc).2.1.mem⟩
  · intro I hI
    rcases List.mem_append.mp hI with hI | hI
    · exact h.joints I hI
    · rw [List.mem_singleton] at hI; subst hI
      refine ⟨a2.jnodup, fun c hc => ?_⟩
      obtain ⟨-, x, -, -, y, t⟩ := a2.jfresh c hc
      rw [← h.g]; exact t.mem
  · rw [List.pairwise_append]
    refine ⟨h.apart, by simp, ?_⟩
    intro I hI J hJ
    rw [List.mem_singleton] at hJ; subst hJ
    refine ⟨?_, ?_, ?_⟩
    · intro b hb hb'
      by_contra hn
      obtain ⟨p, q, -⟩ := hfresh b hb'
      rw [(h.flag b q).mpr ⟨hn, I, hI, hb⟩] at p
      cases p
    · intro c hc hc'
      obtain ⟨p, q, -⟩ := a2.cfresh c hc'
      rw [(h.cflag c (by rw [← h.g]; exact q.mem)).mpr ⟨I, hI, hc⟩] at p
      cases p
    · intro c hc hc'
      obtain ⟨p, x, -, -, y, t⟩ := a2.jfresh c hc'
      rw [(h.jflag c (by rw [← h.g]; exact t.mem)).mpr ⟨I, hI, hc⟩] at p
      cases p
  · intro c hcl hf x y hcon hn
    rw [r1, hg] at hcl hn
    rw [r2, hc.cisland, a2.cflag] at hf
    have hcon' : Connects w c x y := by unfold Connects at *; rw [r1, hg] at hcon; rw [h.g]; exact hcon
    rw [r4, hc.island, hg]
    refine ⟨?_, fun q => hn q.2⟩
    rcases hf with hf | hf
    · exact (hflag x).mpr (.inl (h.ends.contact c (by rw [h.g]; exact hcl) hf x y hcon' (by rw [h.g]; exact hn)))
    · exact a2.cboth c hf x y hcon'
  · intro c hcl hf x y hcon hn
    rw [r1, hg] at hcl hn hcon
    rw [r3, hc.jIsland, a2.jflag] at hf
    have hcon' : w.g.jjoins c x y := by rw [h.g]; exact hcon
    rw [r4, hc.island, hg]
    refine ⟨?_, fun q => hn q.2⟩
    rcases hf with hf | hf
    · exact (hflag x).mpr (.inl (h.ends.joint c (by rw [h.g]; exact hcl) hf x y hcon' (by rw [h.g]; exact hn)))
    · exact a2.jboth c hf x y hcon'

/-- The island found from a seed, when links and islands so far are closed. -/
theorem CI.island {w1 w : World F} {isls : List Island} {seed : Nat} {s : Search F} (hi : GInv w1.g) (h : GI w1 w isls) (t : CI w1 w isls)
    (a2 : SI w seed (fun _ => False) s) (a3 : s.stack = []) :
    (∀ x ∈ s.island.bodies, (w1.g.bodies x).type ≠ .static → ∀ c y, Transmits w1 c → Connects w1 c x y → c ∈ s.island.contacts ∧ y ∈ s.island.bodies) ∧
    (∀ x ∈ s.island.bodies, (w1.g.bodies x).type ≠ .static → ∀ j y, Ties w1 j x y → j ∈ s.island.joints ∧ y ∈ s.island.bodies) := by
  have hflag : ∀ b, (s.w.phys b).island = true ↔ (w.phys b).island = true ∨ b ∈ s.island.bodies := by
    intro b; have := a2.flag b; rw [a3, List.append_nil] at this; exact this
  constructor
  · intro x hx hn c y ht hc
    have ht' := t.kept.transmits ht
    have hc' := t.kept.connects hc
    have hc2 : Connects w1 c y x := by unfold Connects at *; tauto
    have hn' : (w.g.bodies x).type ≠ .static := by rw [h.g]; exact hn
    obtain ⟨bf, bm, -, -⟩ := a2.fresh x (List.mem_append.mpr (.inl hx))
    obtain ⟨p, q⟩ := a2.doneC x hx (fun f => f) hn' c y ht' hc'
    refine ⟨?_, ?_⟩
    · rcases (a2.cflag c).mp p with p | p
      · rw [h.ends.contact c ht'.mem p x y hc' hn'] at bf; cases bf
      · exact p
    · rcases (hflag y).mp q with q | q
      · have hy : y ∈ w1.g.bodyList := by
          obtain ⟨bA, bB, -, -, -, ⟨u, u1, -, u3, -⟩, ⟨v, v1, -, v3, -⟩, -⟩ := hi.ok c ht.mem
          rcases hc with ⟨-, j⟩ | ⟨j, -⟩
          · rw [v3] at j; cases j; exact v1
          · rw [u3] at j; cases j; exact u1
        obtain ⟨ny, I, hI, hyI⟩ := (h.flag y hy).mp q
        have := (t.closedC I hI y hyI ny c x ht hc2).2
        rw [h.g] at bm
        rw [(h.flag x bm).mpr ⟨hn, I, hI, this⟩] at bf; cases bf
      · exact q
  · intro x hx hn c y ht
    have ht' := t.kept.ties ht
    have ht2 : Ties w1 c y x := ⟨ht.mem, by have := ht.ends; tauto, ht.enabledY, ht.enabledX⟩
    have hn' : (w.g.bodies x).type ≠ .static := by rw [h.g]; exact hn
    obtain ⟨bf, bm, -, -⟩ := a2.fresh x (List.mem_append.mpr (.inl hx))
    obtain ⟨p, q⟩ := a2.doneJ x hx (fun f => f) hn' c y ht'
    refine ⟨?_, ?_⟩
    · rcases (a2.jflag c).mp p with p | p
      · rw [h.ends.joint c ht'.mem p x y (Ties.jjoins ht') hn'] at bf; cases bf
      · exact p
    · rcases (hflag y).mp q with q | q
      · have hy : y ∈ w1.g.bodyList := by
          obtain ⟨-, e1, e2⟩ := hi.joint.ends c ht.mem
          rcases ht.ends with ⟨-, j⟩ | ⟨j, -⟩
          · rw [← j]; exact e2
          · rw [← j]; exact e1
        obtain ⟨ny, I, hI, hyI⟩ := (h.flag y hy).mp q
        have := (t.closedJ I hI y hyI ny c x ht2).2
        rw [h.g] at bm
        rw [(h.flag x bm).mpr ⟨hn, I, hI, this⟩] at bf; cases bf
      · exact q

theorem CI.onlyC' {w1 w : World F} {isls : List Island} {seed : Nat} {s : Search F} (hi : GInv w1.g) (h : GI w1 w isls) (t : CI w1 w isls)
    (a2 : SI w seed (fun _ => False) s) (a3 : s.stack = []) : ∀ c ∈ s.island.contacts, Transmits w1 c ∧ ∀ x y, Connects w1 c x y → x ∈ s.island.bodies := by
  intro c hc
  obtain ⟨-, p, x, hx, hn, y, hcon⟩ := a2.cfresh c hc
  have hcon1 := t.kept.symm.connects hcon
  have p1 := t.kept.symm.transmits p
  rw [h.g] at hn
  have hy := ((CI.island hi h t a2 a3).1 x hx hn c y p1 hcon1).2
  refine ⟨p1, fun u v huv => ?_⟩
  unfold Connects at huv hcon1
  rcases hcon1 with ⟨c1, c2⟩ | ⟨c1, c2⟩ <;> rcases huv with ⟨y1, y2⟩ | ⟨y1, y2⟩ <;>
    first
    | (have : u = x := by simp_all
       subst this; exact hx)
    | (have : u = y := by simp_all
       subst this; exact hy)

/-- The island found from a seed is fit for the solvers. -/
theorem CI.fitted {w1 w : World F} {isls : List Island} {seed : Nat} {s : Search F} (hi : GInv w1.g) (h : GI w1 w isls) (t : CI w1 w isls)
    (a2 : SI w seed (fun _ => False) s) (a3 : s.stack = []) : Fitted s.w s.island := by
  have hg : s.w.g = w1.g := a2.kept.g.trans h.g
  refine ⟨a2.index, fun c hc => ?_, fun j hj => ?_⟩
  · obtain ⟨p, q⟩ := CI.onlyC' hi h t a2 a3 c hc
    obtain ⟨bA, bB, hA, hB, hne, -⟩ := hi.ok c p.mem
    rw [hg]
    exact ⟨bA, q bA bB (.inl ⟨hA, hB⟩), bB, q bB bA (.inr ⟨hA, hB⟩), hne, hA, hB⟩
  · obtain ⟨-, x, hx, hn, y, ht⟩ := a2.jfresh j hj
    rw [h.g] at hn
    have ht1 := t.kept.symm.ties ht
    have hy := ((CI.island hi h t a2 a3).2 x hx hn j y ht1).2
    rw [hg]
    rcases ht1.ends with ⟨k1, k2⟩ | ⟨k1, k2⟩
    · rw [k1, k2]; exact ⟨hx, hy⟩
    · rw [k1, k2]; exact ⟨hy, hx⟩

theorem CI.seed {env : Env F} (hP : PostSolveLinks env) {step : TimeStep F} {w1 w v : World F} {isls : List Island} {seed : Nat} {s : Search F}
    (hi : GInv w1.g) (h : GI w1 w isls) (t : CI w1 w isls) (a2 : SI w seed (fun _ => False) s) (a3 : s.stack = [])
    (e : s.w.islandSolve env s.w.g.bodyCount s.island step = some v) :
    CI w1 (v.releaseStatics s.island.bodies) (isls ++ [s.island]) := by
  obtain ⟨i1, i2⟩ := CI.island hi h t a2 a3
  refine ⟨((t.kept.trans a2.kept).trans (islandSolve_kept hP e)).trans (releaseStatics_keeps (bs := []) v s.island.bodies).toKept, ?_, ?_⟩
  · intro I hI
    rcases List.mem_append.mp hI with hI | hI
    · exact t.closedC I hI
    · rw [List.mem_singleton] at hI; subst hI; exact i1
  · intro I hI
    rcases List.mem_append.mp hI with hI | hI
    · exact t.closedJ I hI
    · rw [List.mem_singleton] at hI; subst hI; exact i2

theorem TI.seed {env : Env F} (hE : PostSolveCalm env) {step : TimeStep F} {w1 w v : World F} {isls : List Island} {seen : List Nat} {seed : Nat} {s : Search F}
    (hi : GInv w1.g) (h : GI w1 w isls) (t : TI w1 w isls seen) (hs : w.isSeed seed = true) (hsm : seed ∈ w1.g.bodyList)
    (a2 : SI w seed (fun _ => False) s) (a3 : s.stack = []) (a4 : s.island.bodies.head? = some seed)
    (e : s.w.islandSolve env s.w.g.bodyCount s.island step = some v) :
    TI w1 (v.releaseStatics s.island.bodies) (isls ++ [s.island]) (seen ++ [seed]) := by
  have hflag : ∀ b, (s.w.phys b).island = true ↔ (w.phys b).island = true ∨ b ∈ s.island.bodies := by
    intro b; have := a2.flag b; rw [a3, List.append_nil] at this; exact this
  have hseed : seed ∈ s.island.bodies := List.mem_of_mem_head? (by rw [a4]; rfl)
  have k1 := islandSolve_keeps hE e
  have k2 : Keeps s.island.bodies s.w (v.releaseStatics s.island.bodies) := k1.trans (releaseStatics_keeps v s.island.bodies)
  have hc := islandSolve_calm0 e
  obtain ⟨r1, r2, r3, r4⟩ := releaseStatics_spec s.island.bodies v
  have hg : v.g = w1.g := by rw [(islandSolve_mild e).g, a2.kept.g, h.g]
  have hfl : ∀ b, ((v.releaseStatics s.island.bodies).phys b).island = true ↔ ((w.phys b).island = true ∨ b ∈ s.island.bodies) ∧ ¬ (b ∈ s.island.bodies ∧ (w1.g.bodies b).type = .static) := by
    intro b; rw [r4, hc.island, hflag, hg]
  obtain ⟨i1, i2⟩ := CI.island hi h t.toCI a2 a3
  obtain ⟨s1, s2, s3, s4⟩ := isSeed_iff.mp hs
  rw [h.g] at s3 s4
  refine ⟨⟨(t.kept.trans a2.kept).trans k2.toKept, ?_, ?_⟩, ?_, ?_, ?_, ?_, ?_⟩
  on_goal 3 =>
    intro b hb hn hf
    have hnm : b ∉ s.island.bodies := by
      intro hm
      have := (hfl b).mpr ⟨.inr hm, fun q => hn q.2⟩
      rw [hf] at this; cases this
    have hnw : (w.phys b).island = false := by
      cases hh : (w.phys b).island with
      | false => rfl
      | true =>
        have := (hfl b).mpr ⟨.inl hh, fun q => hn q.2⟩
        rw [hf] at this; cases this
    rw [k2.awake b hnm, a2.awake b hnm, t.awake b hb hn hnw]
  · intro I hI
    rcases List.mem_append.mp hI with hI | hI
    · exact t.closedC I hI
    · rw [List.mem_singleton] at hI; subst hI; exact i1
  · intro I hI
    rcases List.mem_append.mp hI with hI | hI
    · exact t.closedJ I hI
    · rw [List.mem_singleton] at hI; subst hI; exact i2
  · intro I hI
    rcases List.mem_append.mp hI with hI | hI
    · exact t.reach I hI
    · rw [List.mem_singleton] at hI; subst hI
      refine ⟨seed, hseed, ?_, s3, s4, fun b hb => t.kept.symm.reach (a2.fresh b (List.mem_append.mpr (.inl hb))).2.2.2⟩
      rw [← t.awake seed hsm s4 s1]; exact s2
  · intro I hI
    rcases List.mem_append.mp hI with hI | hI
    · exact t.onlyC I hI
    · rw [List.mem_singleton] at hI; subst hI; exact CI.onlyC' hi h t.toCI a2 a3
  · intro I hI
    rcases List.mem_append.mp hI with hI | hI
    · exact t.onlyJ I hI
    · rw [List.mem_singleton] at hI; subst hI
      intro j hj
      obtain ⟨-, x, hx, hn, y, ht⟩ := a2.jfresh j hj
      rw [h.g] at hn
      have ht1 := t.kept.symm.ties ht
      exact ⟨x, y, hx, (i2 x hx hn j y ht1).2, ht1⟩
  · intro b hb h1 h2 h3
    rcases List.mem_append.mp hb with hb | hb
    · exact (hfl b).mpr ⟨.inl (t.covered b hb h1 h2 h3), fun q => h3 q.2⟩
    · rw [List.mem_singleton] at hb; subst hb
      exact (hfl b).mpr ⟨.inr hseed, fun q => h3 q.2⟩

/-! ### All seeds -/

theorem foldl_setPhys_flag (l : List Nat) (w : World F) : ∀ b ∈ l, ((l.foldl (fun w b => w.setPhys b { w.phys b with island := false }) w).phys b).island = false := by
  induction l generalizing w with
  | nil => simp
  | cons a l ih =>
    intro b hb
    rw [List.foldl_cons]
    by_cases hl : b ∈ l
    · exact ih _ b hl
    · rcases List.mem_cons.mp hb with rfl | hb
      · have h0 : ((w.setPhys b { w.phys b with island := false }).phys b).island = false := by
          show (upd w.phys b _ b).island = false
          rw [upd_same]
        exact foldl_inv (f := fun (w : World F) b => w.setPhys b { w.phys b with island := false }) (fun v : World F => (v.phys b).island = false) h0 (fun x hx v hv => by
          show (upd v.phys x _ b).island = false
          by_cases hbx : b = x
          · subst hbx; rw [upd_same]
          · rw [upd_other _ _ hbx]; exact hv)
      · exact absurd hb hl

theorem foldl_setCst_flag (l : List Nat) (w : World F) : ∀ b ∈ l, ((l.foldl (fun w b => w.setCst b { w.cst b with island := false }) w).cst b).island = false := by
  induction l generalizing w with
  | nil => simp
  | cons a l ih =>
    intro b hb
    rw [List.foldl_cons]
    by_cases hl : b ∈ l
    · exact ih _ b hl
    · rcases List.mem_cons.mp hb with rfl | hb
      · have h0 : ((w.setCst b { w.cst b with island := false }).cst b).island = false := by
          show (upd w.cst b _ b).island = false
          rw [upd_same]
        exact foldl_inv (f := fun (w : World F) b => w.setCst b { w.cst b with island := false }) (fun v : World F => (v.cst b).island = false) h0 (fun x hx v hv => by
          show (upd v.cst x _ b).island = false
          by_cases hbx : b = x
          · subst hbx; rw [upd_same]
          · rw [upd_other _ _ hbx]; exact hv)
      · exact absurd hb hl

theorem foldl_jIsland_flag (l : List Nat) (w : World F) : ∀ b ∈ l, (l.foldl (fun (w : World F) j => { w with jIsland := upd w.jIsland j false }) w).jIsland b = false := by
  induction l generalizing w with
  | nil => simp
  | cons a l ih =>
    intro b hb
    rw [List.foldl_cons]
    by_cases hl : b ∈ l
    · exact ih _ b hl
    · rcases List.mem_cons.mp hb with rfl | hb
      · have h0 : ({ w with jIsland := upd w.jIsland b false } : World F).jIsland b = false := upd_same _ _ _
        exact foldl_inv (f := fun (w : World F) j => { w with jIsland := upd w.jIsland j false }) (fun v : World F => v.jIsland b = false) h0 (fun x hx v hv => by
          show upd v.jIsland x _ b = false
          by_cases hbx : b = x
          · subst hbx; rw [upd_same]
          · rw [upd_other _ _ hbx]; exact hv)
      · exact absurd hb hl

theorem jIsland_keeps (bs : List Nat) (w : World F) (j : Nat) (x : Bool) : Keeps bs w { w with jIsland := upd w.jIsland j x } :=
  ⟨⟨rfl, fun _ => rfl, fun _ => rfl, fun _ => rfl⟩, fun _ _ => rfl⟩

theorem clearIslandFlags_keeps (w : World F) : Keeps [] w w.clearIslandFlags := by
  unfold clearIslandFlags
  dsimp only
  refine Keeps.trans ?_ (Keeps.foldl (fun v j _ => jIsland_keeps [] v j false) _)
  refine Keeps.trans ?_ (Keeps.foldl (fun _ _ _ => Keeps.setCst (by rfl) (by rfl)) _)
  exact Keeps.foldl (fun _ _ _ => Keeps.setPhys (.inr (by rfl))) _

theorem clearIslandFlags_spec (w : World F) : (∀ b ∈ w.g.bodyList, (w.clearIslandFlags.phys b).island = false) ∧
    (∀ c ∈ w.g.contactList, (w.clearIslandFlags.cst c).island = false) ∧ (∀ j ∈ w.g.jointList, w.clearIslandFlags.jIsland j = false) := by
  let f1 : World F → Nat → World F := fun w b => w.setPhys b { w.phys b with island := false }
  let f2 : World F → Nat → World F := fun w c => w.setCst c { w.cst c with island := false }
  let f3 : World F → Nat → World F := fun w j => { w with jIsland := upd w.jIsland j false }
  have e : w.clearIslandFlags = (((w.g.bodyList.foldl f1 w).g.contactList.foldl f2 (w.g.bodyList.foldl f1 w)).g.jointList.foldl f3
      ((w.g.bodyList.foldl f1 w).g.contactList.foldl f2 (w.g.bodyList.foldl f1 w))) := rfl
  have g1 : ∀ (l : List Nat) (v : World F), (l.foldl f1 v).g = v.g := fun l v => foldl_inv (f := f1) (fun x => x.g = v.g) rfl (fun _ _ x hx => hx)
  have g2 : ∀ (l : List Nat) (v : World F), (l.foldl f2 v).g = v.g ∧ (l.foldl f2 v).phys = v.phys := fun l v =>
    foldl_inv (f := f2) (fun x => x.g = v.g ∧ x.phys = v.phys) ⟨rfl, rfl⟩ (fun _ _ x hx => hx)
  have g3 : ∀ (l : List Nat) (v : World F), (l.foldl f3 v).phys = v.phys ∧ (l.foldl f3 v).cst = v.cst := fun l v =>
    foldl_inv (f := f3) (fun x => x.phys = v.phys ∧ x.cst = v.cst) ⟨rfl, rfl⟩ (fun _ _ x hx => hx)
  refine ⟨?_, ?_, ?_⟩
  · intro b hb
    rw [e, (g3 _ _).1, (g2 _ _).2]
    exact foldl_setPhys_flag _ _ b hb
  · intro c hc
    rw [e, (g3 _ _).2]
    exact foldl_setCst_flag _ _ c (by rw [g1]; exact hc)
  · intro j hj
    rw [e]
    exact foldl_jIsland_flag _ _ j (by rw [(g2 _ _).1, g1]; exact hj)

theorem GI.start (w : World F) : GI w w.clearIslandFlags [] := by
  have hg : w.clearIslandFlags.g = w.g := (clearIslandFlags_mild w).g
  obtain ⟨h1, h2, h3⟩ := clearIslandFlags_spec w
  refine ⟨hg, ?_, ?_, ?_, ?_, ?_, ?_, List.Pairwise.nil, ?_, ?_⟩
  · intro b hb; rw [h1 b hb]; simp
  · intro b hb; rw [h2 b hb]; simp
  · intro b hb; rw [h3 b hb]; simp
  · intro I hI; cases hI
  · intro I hI; cases hI
  · intro I hI; cases hI
  · intro c hc hf; rw [hg] at hc; rw [h2 c hc] at hf; cases hf
  · intro c hc hf; rw [hg] at hc; rw [h3 c hc] at hf; cases hf

theorem TI.start (w : World F) : TI w w.clearIslandFlags [] [] := by
  have k := clearIslandFlags_keeps w
  refine ⟨⟨k.toKept, ?_, ?_⟩, fun b _ _ _ => k.awake b (by simp), ?_, ?_, ?_, ?_⟩
  all_goals (intro I hI; cases hI)

theorem CI.start (w : World F) : CI w w.clearIslandFlags [] := (TI.start w).toCI

theorem islandSolve_total {env : Env F} (hT : ∀ (v : World F) c, v.listen env (.postSolve c) ≠ none) (w : World F) {isl : Island} {cap : Nat}
    (h : isl.bodies.length ≤ cap) (hp : w.pointed isl = true) (step : TimeStep F) (hs : env.solvable w isl step = true) : ∃ v, w.islandSolve env cap isl step = some v := by
  have hrep : ∀ v : World F, ∃ v', v.report env isl.contacts = some v' := by
    intro v
    unfold report
    generalize isl.contacts = cs
    induction cs generalizing v with
    | nil => exact ⟨v, rfl⟩
    | cons c cs ihc =>
      rw [List.foldlM_cons]
      cases hh : v.listen env (.postSolve c) with
      | none => exact absurd hh (hT v c)
      | some v1 => exact ihc v1
  have hm : ∃ x, w.islandMove env cap isl step = some x := by
    unfold islandMove
    rw [if_neg (by rw [hp, hs]; simpa using h)]
    dsimp only
    rw [(hrep _).choose_spec]
    exact ⟨_, rfl⟩
  obtain ⟨⟨v, r⟩, hx⟩ := hm
  unfold islandSolve
  rw [hx]
  exact ⟨_, rfl⟩

theorem seeds_spec {env : Env F} {step : TimeStep F} {w1 : World F} (hi : GInv w1.g) (l : List Nat) (hl : ∀ b ∈ l, b ∈ w1.g.bodyList) {w : World F} {isls : List Island} {seen : List Nat}
    (h : GI w1 w isls) (t : PostSolveCalm env → TI w1 w isls seen) (u : PostSolveLinks env → CI w1 w isls) :
    ((∀ (v : World F) c, v.listen env (.postSolve c) ≠ none) → CallbacksTame env → ImpulsesPush env → PostSolveLinks env → SolversRun env → 0 ≤ step.dtRatio → Solid w → Pressing w → l.foldlM (solveSeed env step) (w, isls) ≠ none) ∧
    ∀ w' isls', l.foldlM (solveSeed env step) (w, isls) = some (w', isls') → GI w1 w' isls' ∧ (PostSolveCalm env → TI w1 w' isls' (seen ++ l)) ∧ (PostSolveLinks env → CI w1 w' isls') := by
  induction l generalizing w isls seen with
  | nil =>
    refine ⟨fun _ _ _ _ _ _ _ _ hx => by simp at hx, ?_⟩
    intro w' isls' e
    cases e
    exact ⟨h, by rw [List.append_nil]; exact t, u⟩
  | cons a l ih =>
    have hl' : ∀ b ∈ l, b ∈ w1.g.bodyList := fun b hb => hl b (by simp [hb])
    have ha : a ∈ w1.g.bodyList := hl a (by simp)
    rw [List.foldlM_cons]
    have happ : seen ++ a :: l = (seen ++ [a]) ++ l := by simp
    rcases solveSeed_spec (env := env) (step := step) (isls := isls) (by rw [h.g]; exact hi) h.ends (show a ∈ w.g.bodyList by rw [h.g]; exact ha) with ⟨p, q⟩ | ⟨p, s, a1, a2, a3, a4, a5, q⟩
    · rw [q, happ]
      refine ih hl' h (fun hE => ?_) u
      have t := t hE
      refine ⟨t.toCI, t.awake, t.reach, t.onlyC, t.onlyJ, ?_⟩
      intro b hb h1 h2 h3
      rcases List.mem_append.mp hb with hb | hb
      · exact t.covered b hb h1 h2 h3
      · rw [List.mem_singleton] at hb; subst hb
        by_contra hf
        rw [Bool.not_eq_true] at hf
        have := isSeed_iff.mpr ⟨hf, by rw [t.awake b ha h3 hf]; exact h1, by rw [h.g]; exact h2, by rw [h.g]; exact h3⟩
        rw [p] at this; cases this
    · rw [q]
      cases e : s.w.islandSolve env s.w.g.bodyCount s.island step with
      | none =>
        refine ⟨fun hT _ _ hP hV hD hS hU => ?_, fun _ _ hx => by cases hx⟩
        exfalso
        have hpt := pointed_of ((Keep2.firm (buildIsland_firm a1)).solid hS) fun c hc => a2.kept.transmits (a2.cfresh c hc).2.1
        obtain ⟨v, hv⟩ := islandSolve_total hT s.w a5 hpt step (hV.solve s.w s.island step (CI.fitted hi h (u hP) a2 a3) hpt (fun c _ => ((buildIsland_firm a1).push hU).1 c) hD)
        rw [hv] at e; cases e
      | some v =>
        have g' := h.seed a2 a3 e
        rw [happ]
        obtain ⟨i1, i2⟩ := ih hl' g' (fun hE => (t hE).seed hE hi h p ha a2 a3 a4 e) (fun hP => (u hP).seed hP hi h a2 a3 e)
        refine ⟨fun hT hC hI hP hV hD hS hU => ?_, i2⟩
        have k := Keep2.firm (((buildIsland_firm a1).trans (islandSolve_firm hC hI ((buildIsland_firm a1).push hU) hD e)).trans (releaseStatics_firm _ s.island.bodies))
        exact i1 hT hC hI hP hV hD (k.solid hS) (k.push hU)

end World
end
end B2
