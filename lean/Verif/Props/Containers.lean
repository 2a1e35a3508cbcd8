import Verif.Proofs.LinkedList
import Verif.Proofs.GrowableStack

/-!
# Properties of the containers (C01 - C04)

The specification objects are plain `List`s.
-/
namespace B2.Props
open B2

/-! ## C01, C02: the intrusive lists behave as sequences -/

/-- Operations a client performs on one list. -/
inductive LOp where
  | push (n : Nat)
  | remove (n : Nat)
  | removeAll
  | clear

/-- What each operation means for a sequence; `none` = the operation is refused. -/
def specStep (l : List Nat) : LOp → Option (List Nat)
  | .push n => some (n :: l)
  | .remove n => if n ∈ l then some (l.erase n) else none
  | .removeAll => some []
  | .clear => some []

/-- Run a history on the specification. -/
def specRun (l : List Nat) (ops : List LOp) : Option (List Nat) := ops.foldlM specStep l

/-- Only nodes that are not in the list at that moment are pushed. -/
def PushesFresh (ops : List LOp) : Prop :=
  ∀ pre n post l, ops = pre ++ .push n :: post → specRun [] pre = some l → n ∉ l

/-- One operation of the singly linked list. -/
def sStep (s : SList.State) : LOp → Option SList.State
  | .push n => some (SList.pushFront s n)
  | .remove n => SList.remove s n
  | .removeAll => SList.removeAll s
  | .clear => some (SList.clear s)

/-- One operation of the doubly linked list. -/
def dStep (s : DList.State) : LOp → Option DList.State
  | .push n => some (DList.pushFront s n)
  | .remove n => DList.remove s n
  | .removeAll => DList.removeAll s
  | .clear => some (DList.clear s)

/-- A history that reuses ids, removes from front, middle and back, and empties the list. -/
def demoOps : List LOp :=
  [.push 3, .push 1, .push 7, .remove 1, .push 1, .remove 3, .removeAll, .push 3, .push 4, .clear, .push 4]

private theorem sRep_run : ∀ (ops : List LOp) (s : SList.State) (l : List Nat), SList.Rep s l →
    (∀ pre n post l', ops = pre ++ .push n :: post → specRun l pre = some l' → n ∉ l') →
    match specRun l ops with
    | some l' => ∃ s', ops.foldlM sStep s = some s' ∧ SList.Rep s' l'
    | none => ops.foldlM sStep s = none
  | [], s, l, h, _ => ⟨s, rfl, h⟩
  | op :: ops, s, l, h, hf => by
    have hstep : match specStep l op with
        | some l' => ∃ s', sStep s op = some s' ∧ SList.Rep s' l'
        | none => sStep s op = none := by
      cases op with
      | push n => exact ⟨_, rfl, h.pushFront (hf [] n ops l rfl rfl)⟩
      | remove n =>
        by_cases hn : n ∈ l
        · simpa only [specStep, sStep, if_pos hn] using h.remove_mem hn
        · simpa only [specStep, sStep, if_neg hn] using h.remove_notMem hn
      | removeAll => obtain ⟨s', h1, h2, _⟩ := h.removeAll; exact ⟨s', h1, h2⟩
      | clear => exact ⟨_, rfl, rfl, by simp, by simp⟩
    unfold specRun
    rw [List.foldlM_cons, List.foldlM_cons]
    cases hl : specStep l op with
    | none => rw [hl] at hstep; simp only at hstep; simp [hstep]
    | some l' =>
      rw [hl] at hstep
      obtain ⟨s', h1, h2⟩ := hstep
      have := sRep_run ops s' l' h2 (by
        intro pre n post l'' e hr
        refine hf (op :: pre) n post l'' (by rw [e]; rfl) ?_
        unfold specRun
        rw [List.foldlM_cons, hl]; exact hr)
      simpa [h1, specRun] using this

/-- **C01.** Whatever the history of push / remove / remove_all / clear on the (singly linked) fixture
list, what iteration over the list yields is exactly what the same history does to a plain sequence; and
the list panics exactly where the sequence operation is refused (removing an element that is not there). -/
theorem c01_fixture_list_is_sequence (ops : List LOp) (hf : PushesFresh ops) :
    (ops.foldlM sStep SList.init).bind SList.toList = specRun [] ops := by
  have h0 : SList.Rep SList.init [] := ⟨rfl, by simp, by simp⟩
  have h := sRep_run ops _ _ h0 hf
  cases hl : specRun [] ops with
  | none => rw [hl] at h; simp only at h; rw [h]; rfl
  | some l =>
    rw [hl] at h
    obtain ⟨s', h1, h2⟩ := h
    rw [h1]; exact h2.toList

example : (demoOps.foldlM sStep SList.init).bind SList.toList = some [4] ∧ specRun [] demoOps = some [4] := by
  constructor <;> rfl

/-- the hypothesis is satisfiable by a non-trivial history -/
example : PushesFresh [.push 3, .push 1, .remove 3, .push 3] := by
  intro pre n post l e hr
  rcases pre with _ | ⟨a, _ | ⟨b, _ | ⟨c, _ | ⟨d, pre⟩⟩⟩⟩ <;> simp at e
  · obtain ⟨rfl, -⟩ := e; cases hr; simp
  · obtain ⟨rfl, rfl, -⟩ := e; cases hr; simp
  · obtain ⟨rfl, rfl, rfl, rfl, -⟩ := e; cases hr; simp

/-- removing a non-member panics -/
example : ([LOp.push 3, .push 1, .remove 2].foldlM sStep SList.init) = none := by rfl

/-- Every removal is of a current member. -/
def RemovesMembers (ops : List LOp) : Prop :=
  ∀ pre n post l, ops = pre ++ .remove n :: post → specRun [] pre = some l → n ∈ l

private theorem dRep_run : ∀ (ops : List LOp) (s : DList.State) (l : List Nat), DList.Rep s l →
    (∀ pre n post l', ops = pre ++ .push n :: post → specRun l pre = some l' → n ∉ l') →
    (∀ pre n post l', ops = pre ++ .remove n :: post → specRun l pre = some l' → n ∈ l') →
    ∃ l' s', specRun l ops = some l' ∧ ops.foldlM dStep s = some s' ∧ DList.Rep s' l'
  | [], s, l, h, _, _ => ⟨l, s, rfl, rfl, h⟩
  | op :: ops, s, l, h, hf, hm => by
    have hstep : ∃ l' s', specStep l op = some l' ∧ dStep s op = some s' ∧ DList.Rep s' l' := by
      cases op with
      | push n => exact ⟨_, _, rfl, rfl, h.pushFront (hf [] n ops l rfl rfl)⟩
      | remove n =>
        have hn := hm [] n ops l rfl rfl
        obtain ⟨s', h1, h2, _⟩ := h.remove_mem hn
        exact ⟨_, s', by simp only [specStep, if_pos hn], h1, h2⟩
      | removeAll => obtain ⟨s', h1, h2⟩ := h.removeAll; exact ⟨_, s', rfl, h1, h2⟩
      | clear => exact ⟨_, _, rfl, rfl, rfl, by simp, by simp⟩
    obtain ⟨l', s', hl, hs, hr⟩ := hstep
    unfold specRun
    rw [List.foldlM_cons, List.foldlM_cons, hl, hs]
    refine dRep_run ops s' l' hr ?_ ?_
    · intro pre n post l'' e hr
      refine hf (op :: pre) n post l'' (by rw [e]; rfl) ?_
      unfold specRun
      rw [List.foldlM_cons, hl]; exact hr
    · intro pre n post l'' e hr
      refine hm (op :: pre) n post l'' (by rw [e]; rfl) ?_
      unfold specRun
      rw [List.foldlM_cons, hl]; exact hr

/-- The links of consecutive members point at each other, and the ends point nowhere. -/
def LinksConsistent (s : DList.State) (l : List Nat) : Prop :=
  ∀ i, ∀ a, l[i]? = some a → s.next a = l[i + 1]? ∧ s.prev a = if i = 0 then none else l[i - 1]?

private theorem dseg_links {next prev : Nat → Option Nat} : ∀ {l : List Nat} {p h : Option Nat},
    DList.DSeg next prev p h l → ∀ i, ∀ a, l[i]? = some a →
      next a = l[i + 1]? ∧ prev a = if i = 0 then p else l[i - 1]?
  | [], _, _, _, i, a, hi => by simp at hi
  | b :: l, p, h, hs, 0, a, hi => by
    obtain ⟨_, h2, h3⟩ := hs
    have : b = a := by simpa using hi
    subst this
    refine ⟨?_, by simpa using h2⟩
    cases l with
    | nil => simpa [DList.DSeg] using h3
    | cons c l => simpa using h3.1
  | b :: l, p, h, hs, i + 1, a, hi => by
    obtain ⟨_, h2, h3⟩ := hs
    have := dseg_links h3 i a (by simpa using hi)
    refine ⟨by simpa using this.1, ?_⟩
    rw [this.2]
    cases i with
    | zero => simp
    | succ i => simp

/-- **C02.** For every history that pushes absent nodes and removes members, none of the operations
panics, iteration yields exactly the sequence obtained by doing the same to a plain sequence, and the
`next`/`prev` links of its elements agree. -/
theorem c02_double_list_is_sequence (ops : List LOp) (hf : PushesFresh ops) (hm : RemovesMembers ops) :
    ∃ l s, specRun [] ops = some l ∧ ops.foldlM dStep DList.init = some s ∧
      DList.toList s = some l ∧ LinksConsistent s l := by
  have h0 : DList.Rep DList.init [] := ⟨rfl, by simp, by simp⟩
  obtain ⟨l, s, h1, h2, h3⟩ := dRep_run ops _ _ h0 hf hm
  exact ⟨l, s, h1, h2, h3.toList, fun i a hi => dseg_links h3.1 i a hi⟩

example : (demoOps.foldlM dStep DList.init).bind DList.toList = some [4] := by rfl

/-- both hypotheses hold of a history with interior removal and re-insertion -/
example : PushesFresh [.push 3, .push 1, .remove 3, .push 3] ∧ RemovesMembers [.push 3, .push 1, .remove 3, .push 3] := by
  constructor
  · intro pre n post l e hr
    rcases pre with _ | ⟨a, _ | ⟨b, _ | ⟨c, _ | ⟨d, pre⟩⟩⟩⟩ <;> simp at e
    · obtain ⟨rfl, -⟩ := e; cases hr; simp
    · obtain ⟨rfl, rfl, -⟩ := e; cases hr; simp
    · obtain ⟨rfl, rfl, rfl, rfl, -⟩ := e; cases hr; simp
  · intro pre n post l e hr
    rcases pre with _ | ⟨a, _ | ⟨b, _ | ⟨c, _ | ⟨d, pre⟩⟩⟩⟩ <;> simp at e
    · obtain ⟨rfl, rfl, rfl, -⟩ := e; cases hr; simp

/-- The member hypothesis is needed: removing a node twice (a stale handle) is not detected and brings the
already removed node 1 back into the list. -/
theorem c02_stale_remove_corrupts :
    ([LOp.push 1, .push 2, .push 3, .remove 2, .remove 1].foldlM dStep DList.init).bind DList.toList =
      some [3] ∧
    ([LOp.push 1, .push 2, .push 3, .remove 2, .remove 1, .remove 2].foldlM dStep DList.init).bind
      DList.toList = some [3, 1] := ⟨rfl, rfl⟩

/-! ## C03: removing the element just handed out while iterating -/

/-- **C03.** For every list reachable by a valid history and every choice `rem` of elements to remove, the
loop `for x in list { if rem x { list.remove(x) } }` visits exactly the elements that were there at the
start, in order, once each, does not panic, and leaves exactly the elements not removed, in order. -/
theorem c03_remove_while_iterating (ops : List LOp) (hf : PushesFresh ops) (hm : RemovesMembers ops)
    (rem : Nat → Bool) :
    ∃ l s s', specRun [] ops = some l ∧ ops.foldlM dStep DList.init = some s ∧
      DList.iterRemove rem s.size s s.head = some (l, s') ∧
      DList.toList s' = some (l.filter fun n => !rem n) := by
  have h0 : DList.Rep DList.init [] := ⟨rfl, by simp, by simp⟩
  obtain ⟨l, s, h1, h2, h3⟩ := dRep_run ops _ _ h0 hf hm
  obtain ⟨s', k1, k2⟩ := DList.iterRemove_eq rem l [] s s.size (by simpa using h3)
    (h3.1.seg.length_le h3.2.1 h3.2.2)
  exact ⟨l, s, s', h1, h2, by rw [h3.head_eq]; exact k1, k2.toList⟩

/-- on the list 5,4,3,2,1 remove the even ones while iterating -/
example : (([LOp.push 1, .push 2, .push 3, .push 4, .push 5].foldlM dStep DList.init).bind fun s =>
    (DList.iterRemove (fun n => n % 2 == 0) s.size s s.head).bind fun r =>
      (DList.toList r.2).map fun l => (r.1, l)) = some ([5, 4, 3, 2, 1], [5, 3, 1]) := by rfl

/-! ## C04: growable stack -/

/-- Operations on a stack. -/
inductive StOp (T : Type) where
  | push (x : T)
  | pop

variable {T : Type}

/-- Specification: the list of elements pushed and not yet popped, most recent first. The second component
collects what the pops returned. -/
def stSpec (st : List T × List T) : StOp T → Option (List T × List T)
  | .push x => some (x :: st.1, st.2)
  | .pop => match st.1 with
    | [] => none
    | x :: r => some (r, st.2 ++ [x])

/-- The same history on the modelled stack with inline capacity `N`. -/
def stModel (N : Nat) (st : GStack.State T × List T) : StOp T → Option (GStack.State T × List T)
  | .push x => (GStack.push N st.1 x).map fun s => (s, st.2)
  | .pop => (GStack.pop N st.1).map fun r => (r.2, st.2 ++ [r.1])

private theorem st_run (N : Nat) : ∀ (ops : List (StOp T)) (s : GStack.State T) (l out : List T),
    GStack.Rep N s l.reverse →
    match ops.foldlM stSpec (l, out) with
    | some r => ∃ s', ops.foldlM (stModel N) (s, out) = some (s', r.2) ∧ GStack.Rep N s' r.1.reverse
    | none => ops.foldlM (stModel N) (s, out) = none
  | [], s, l, out, h => ⟨s, rfl, h⟩
  | .push x :: ops, s, l, out, h => by
    obtain ⟨s', h1, h2⟩ := h.push x
    have := st_run N ops s' (x :: l) out (by simpa using h2)
    rw [List.foldlM_cons, List.foldlM_cons]
    simpa [stSpec, stModel, h1] using this
  | .pop :: ops, s, l, out, h => by
    rw [List.foldlM_cons, List.foldlM_cons]
    cases l with
    | nil =>
      have := GStack.Rep.pop_nil h
      simp [stSpec, stModel, this]
    | cons x r =>
      obtain ⟨s', h1, h2⟩ := GStack.Rep.pop_append (by simpa using h)
      have := st_run N ops s' r (out ++ [x]) h2
      simpa [stSpec, stModel, h1] using this

/-- **C04.** For every inline capacity and every history, the stack returns from its pops exactly what a
list-based LIFO returns, panics exactly when that one is empty, and reports its length as the count. -/
theorem c04_stack_is_lifo (N : Nat) (d : T) (ops : List (StOp T)) :
    (ops.foldlM (stModel N) (GStack.new d, [])).map (fun r => (r.2, GStack.getCount r.1)) =
      (ops.foldlM stSpec ([], [])).map (fun r => (r.2, r.1.length)) := by
  have h0 : GStack.Rep N (GStack.new d) ([] : List T).reverse := ⟨Nat.zero_le _, rfl⟩
  have h := st_run N ops _ _ [] h0
  cases hr : ops.foldlM stSpec (([], []) : List T × List T) with
  | none => rw [hr] at h; simp only at h; rw [h]; rfl
  | some r =>
    rw [hr] at h
    obtain ⟨s', h1, h2⟩ := h
    rw [h1]; simp [h2.count]

/-- a history that spills from the 2-slot array to the heap and comes back below 2 -/
example : (([.push 1, .push 2, .push 3, .pop, .pop, .push 9, .pop] : List (StOp Nat)).foldlM
    (stModel 2) (GStack.new 0, [])).map (fun r => (r.2, GStack.getCount r.1)) = some ([3, 2, 9], 1) := by rfl

end B2.Props
