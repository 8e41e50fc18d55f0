import Verif.BcText
import Verif.MorfText
import Verif.StagText
/-!
# The files of the repository meet the assumptions of the model

`Block` takes all tokens and abbreviations before the blocks, and takes the name of an instance for the instance.
Neither matters for the three files.
-/

namespace Jbo.DfaSrc
open Jbo.Dfasyn Jbo.DfaParse

/-- The declarations in a text. -/
def declsOf (s : List Char) : Option (List Decl) :=
  DfaParse.parse ((DfaScan.scan s).filterMap fun
    | .tok _ t => some t
    | .leak _ => none)

/-- No `Tokens` or `Abbrev` line after a block. -/
def InOrder (ds : List Decl) : Prop :=
  ∀ a b c d, ds = a ++ .block b :: (c ++ d) → ∀ x ∈ c, (∀ f l, x ≠ .tokens f l) ∧ ∀ n f l, x ≠ .abbrev n f l

def isEarly : Decl → Bool
  | .tokens _ _ => true
  | .abbrev _ _ _ => true
  | _ => false

def isBlock : Decl → Bool
  | .block _ => true
  | _ => false

/-- After the first block there is nothing of the kind. -/
def inOrder (ds : List Decl) : Bool := (ds.dropWhile (fun d => !isBlock d)).all (fun d => !isEarly d)

theorem inOrder_sound {ds : List Decl} (h : inOrder ds = true) : InOrder ds := by
  rintro a b c d rfl x hx
  have hmem : ∀ a : List Decl, x ∈ (a ++ .block b :: (c ++ d)).dropWhile (fun d => !isBlock d) := by
    intro a
    induction a with
    | nil => simp [List.dropWhile_cons, isBlock, hx]
    | cons y a ih =>
      rw [List.cons_append, List.dropWhile_cons]
      split
      · exact ih
      · simp [hx]
  have := List.all_eq_true.1 h x (hmem a)
  constructor
  · rintro f l rfl; simp [isEarly] at this
  · rintro n f l rfl; simp [isEarly] at this

/-- No two blocks have the same name, and no two instances in a block. -/
def Distinct (s : Source) : Prop :=
  (s.blocks.map (·.name)).Nodup ∧ ∀ b ∈ s.blocks, (b.insts.map (·.1)).Nodup

instance (s : Source) : Decidable (Distinct s) := by unfold Distinct; infer_instance

theorem bc_distinct : Distinct Bc.bcSource := by decide +kernel
theorem morf_distinct : Distinct Morf.morfSource := by decide +kernel
theorem stag_distinct : Distinct Stag.stagSource := by decide +kernel

theorem inOrder_of {s : List Char} (h : (declsOf s).any inOrder = true) : ∃ ds, declsOf s = some ds ∧ InOrder ds := by
  cases e : declsOf s with
  | none => rw [e] at h; cases h
  | some ds => rw [e] at h; exact ⟨ds, rfl, inOrder_sound h⟩

/-- C116: in the three files no tokens or abbreviations come after a block. -/
theorem bc_inOrder : ∃ ds, declsOf Bc.text = some ds ∧ InOrder ds := inOrder_of (by decide +kernel)
theorem stag_inOrder : ∃ ds, declsOf Stag.text = some ds ∧ InOrder ds := inOrder_of (by decide +kernel)
theorem morf_inOrder : ∃ ds, declsOf Morf.text = some ds ∧ InOrder ds := inOrder_of (by decide +kernel)

/-- The opposite order is noticed. -/
example : ∃ ds, declsOf c!"Tokens A\nBlock b\nState s\nA -> s\nEndBlock\nTokens B\n" = some ds ∧ ¬ InOrder ds := by
  refine ⟨[.tokens c!"A" [], .block ⟨c!"b", [], [⟨c!"s", none, [⟨.toks (some c!"A") [], [], .to c!"s" []⟩]⟩]⟩,
    .tokens c!"B" []], by decide +kernel, fun h => ?_⟩
  exact (h [_] _ [.tokens c!"B" []] [] rfl _ (List.mem_singleton.2 rfl)).1 _ _ rfl

end Jbo.DfaSrc
