import Verif.GramOcc
/-!
# Nodes are told apart by their numbers

The number of a node stands for its address, so different nodes have different numbers.
-/

namespace Jbo.Gram
open Jbo.Terms

mutual
/-- The numbers of the nodes of a tree. -/
def ids : Node → List Nat
  | .nt i _ cs => i :: idsAll cs
  | x => [x.id]
def idsAll : List Node → List Nat
  | [] => []
  | c :: cs => ids c ++ idsAll cs
end

/-- A pass that writes down where it is. -/
def here (anc : List Node) (x : Node) : M (List (List Node × Node)) := .ok [(anc, x)]

mutual
theorem here_ids (anc : List Node) : ∀ x, ∃ l, visit here anc x = .ok l ∧ l.map (·.2.id) = ids x
  | .nt i t cs => by
    rw [visit]
    by_cases ht : t = .augmented
    · obtain ⟨l, h1, h2⟩ := hereAug_ids anc cs
      exact ⟨_, by simp only [ht, if_true, h1, here]; rfl, by rw [ids, List.map_append, h2]; rfl⟩
    · obtain ⟨l, h1, h2⟩ := hereAll_ids (.nt i t cs :: anc) cs
      exact ⟨_, by simp only [ht, if_false, h1, here]; rfl, by rw [ids, List.map_append, h2]; rfl⟩
  | .brivla i => ⟨_, rfl, rfl⟩
  | .zei i => ⟨_, rfl, rfl⟩
  | .cmavo i s w => ⟨_, rfl, rfl⟩
  | .leaf i => ⟨_, rfl, rfl⟩
theorem hereAll_ids (anc : List Node) : ∀ cs, ∃ l, visitAll here anc cs = .ok l ∧ l.map (·.2.id) = idsAll cs
  | [] => ⟨_, rfl, rfl⟩
  | c :: cs => by
    obtain ⟨l, h1, h2⟩ := here_ids anc c
    obtain ⟨m, h3, h4⟩ := hereAll_ids anc cs
    exact ⟨l ++ m, by rw [visitAll, h1, h3]; rfl, by rw [List.map_append, h2, h4, idsAll]⟩
theorem hereAug_ids (anc : List Node) : ∀ cs, ∃ l, visitAug here anc cs = .ok l ∧ l.map (·.2.id) = idsAll cs
  | [] => ⟨_, rfl, rfl⟩
  | c :: cs => by
    rw [visitAug]
    by_cases hb : c.isSel .BAhE = true
    · obtain ⟨l, h1, h2⟩ := here_ids [] c
      obtain ⟨m, h3, h4⟩ := hereAug_ids anc cs
      exact ⟨l ++ m, by rw [if_pos hb, h1, h3]; rfl, by rw [List.map_append, h2, h4, idsAll]⟩
    · obtain ⟨l, h1, h2⟩ := here_ids anc c
      obtain ⟨m, h3, h4⟩ := hereAll_ids [] cs
      exact ⟨l ++ m, by rw [if_neg hb, h1, h3]; rfl, by rw [List.map_append, h2, h4, idsAll]⟩
end

/-- A number is that of one node in one place. -/
theorem occ_unique {t : NT} {top : Node} (hp : Parse t top) (hn : (ids top).Nodup) {anc anc' : List Node} {x x' : Node}
    (h : Occ top anc x) (h' : Occ top anc' x') (e : x.id = x'.id) : anc = anc' ∧ x = x' := by
  obtain ⟨l, h1, h2⟩ := here_ids [] top
  obtain ⟨log, h3, h4⟩ := pass_logs (f := here) (Q := fun anc x e => e = (anc, x)) top fun anc x ho =>
    ⟨occ_augOk hp ho, _, rfl, fun e => by simp⟩
  rw [h1] at h3
  cases h3
  rw [← h2] at hn
  have m1 := (h4 (anc, x)).2 ⟨anc, x, h, rfl⟩
  have m2 := (h4 (anc', x')).2 ⟨anc', x', h', rfl⟩
  have := List.inj_on_of_nodup_map hn m1 m2 e
  exact Prod.mk.injEq .. ▸ this

end Jbo.Gram
