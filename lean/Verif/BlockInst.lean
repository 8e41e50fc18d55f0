import Verif.Block
/-!
# Instances of blocks are copies
-/

namespace Jbo.Dfasyn

/-- The state `s'` of a block is the copy of the state `s` of a finished block whose first state went to `off`: the name
has the prefix, the tags are the same, and the transitions are those of `s`, moved by `off`. -/
structure CopyOf (off : Nat) (inst : Atom) (s s' : PState) : Prop where
  name : s'.name = inst :: s.name
  exits : ∀ n, n ∈ s'.exits ↔ n ∈ s.exits
  attrs : ∀ n, n ∈ s'.attrs ↔ n ∈ s.attrs
  trans : ∀ t j, (t, Dest.at j) ∈ s'.trans ↔ ∃ i, j = off + i ∧ (t, Dest.at i) ∈ s.trans

/-- C118: an instance of a block adds a copy of every state of the block behind the states that were there, which stay
as they are, and nothing else. -/
theorem instantiate_copies {env : Env} {b b' : PBlock} {inst : Atom} {master : Ident}
    (h : instantiate env b inst master = some b') :
    ∃ m, env.blocks.lookup master = some m ∧ b'.states.length = b.states.length + m.states.length ∧
      (∀ i, i < b.states.length → b'.states[i]? = b.states[i]?) ∧
      ∀ i s, m.states[i]? = some s →
        ∃ s', b'.states[b.states.length + i]? = some s' ∧ CopyOf b.states.length inst s s' := by
  unfold instantiate at h
  cases hm : env.blocks.lookup master with
  | none => rw [hm] at h; cases h
  | some m =>
    rw [hm] at h
    simp only [Option.some.injEq] at h
    subst h
    refine ⟨m, rfl, by simp, fun i hi => List.getElem?_append_left hi, fun i s hs => ?_⟩
    simp only
    rw [List.getElem?_append_right (by omega), Nat.add_sub_cancel_left, List.getElem?_map, hs]
    refine ⟨_, rfl, rfl, fun n => List.mem_reverse, fun n => List.mem_reverse, fun t j => ?_⟩
    simp only [List.mem_reverse, List.mem_map, Prod.mk.injEq]
    constructor
    · rintro ⟨⟨t', d⟩, hd, rfl, e⟩
      cases d with
      | «at» i =>
        simp only [Dest.at.injEq] at e
        exact ⟨i, e.symm, hd⟩
      | named n => simp at e
    · rintro ⟨i, rfl, hd⟩
      exact ⟨(t, .at i), hd, rfl, rfl⟩

/-- An unknown block is refused. -/
theorem instantiate_unknown {env : Env} {b : PBlock} {inst : Atom} {master : Ident} :
    instantiate env b inst master = none ↔ env.blocks.lookup master = none := by
  unfold instantiate
  cases env.blocks.lookup master <;> simp

/-- A block with a loop, an exit value and an attribute, put behind one state. -/
example : instantiate ⟨[], [], [(n!"m", ⟨[⟨[.id n!"in"], [(some 3, .at 1), (none, .at 0)], [], [c!"a"]⟩,
      ⟨[.id n!"out"], [(some 2, .at 0)], [c!"x", c!"y"], []⟩], 1, 1⟩)]⟩
    ⟨[⟨[.id n!"s"], [], [], []⟩], 1, 1⟩ (.id n!"i") n!"m" =
    some ⟨[⟨[.id n!"s"], [], [], []⟩, ⟨[.id n!"i", .id n!"in"], [(none, .at 1), (some 3, .at 2)], [], [c!"a"]⟩,
      ⟨[.id n!"i", .id n!"out"], [(some 2, .at 1)], [c!"y", c!"x"], []⟩], 1, 1⟩ := by decide +kernel

end Jbo.Dfasyn
