import Verif.Block
/-!
# Running the model of the block language in the kernel

The kernel evaluates by need, and a long chain of unevaluated updates makes it slow.  The functions
here compute the same as those in `Block` (each has its lemma), but evaluate the block after every
declaration.
-/

namespace Jbo.Dfasyn

variable {α β : Type}

/-- Evaluate, then go on. -/
def forceNat (n : Nat) (k : Nat → β) : β :=
  match n with
  | 0 => k 0
  | m + 1 => k (m + 1)

theorem forceNat_eq (n : Nat) (k : Nat → β) : forceNat n k = k n := by cases n <;> rfl

def forceOpt (f : α → (α → β) → β) (o : Option α) (k : Option α → β) : β :=
  match o with
  | none => k none
  | some a => f a (fun a => k (some a))

theorem forceOpt_eq (f : α → (α → β) → β) (hf : ∀ a k, f a k = k a) (o : Option α) (k : Option α → β) :
    forceOpt f o k = k o := by cases o <;> simp [forceOpt, hf]

def forceList (f : α → (α → β) → β) : List α → (List α → β) → β
  | [], k => k []
  | a :: l, k => f a (fun a => forceList f l (fun l => k (a :: l)))

theorem forceList_eq (f : α → (α → β) → β) (hf : ∀ a k, f a k = k a) (l : List α) (k : List α → β) :
    forceList f l k = k l := by
  induction l generalizing k with
  | nil => rfl
  | cons a l ih => rw [forceList, hf, ih]

def forceAtom (a : Atom) (k : Atom → β) : β :=
  match a with
  | .id s => k (.id s)
  | .sub n => forceNat n (fun n => k (.sub n))
  | .blk s n => forceNat n (fun n => k (.blk s n))

theorem forceAtom_eq (a : Atom) (k : Atom → β) : forceAtom a k = k a := by
  cases a <;> simp [forceAtom, forceNat_eq]

def forceDest (d : Dest) (k : Dest → β) : β :=
  match d with
  | .at i => forceNat i (fun i => k (.at i))
  | .named n => forceList forceAtom n (fun n => k (.named n))

theorem forceDest_eq (d : Dest) (k : Dest → β) : forceDest d k = k d := by
  cases d <;> simp [forceDest, forceNat_eq, forceList_eq _ forceAtom_eq]

def forceTrans (t : Option Nat × Dest) (k : Option Nat × Dest → β) : β :=
  forceOpt forceNat t.1 (fun a => forceDest t.2 (fun d => k (a, d)))

theorem forceTrans_eq (t : Option Nat × Dest) (k : Option Nat × Dest → β) : forceTrans t k = k t := by
  simp [forceTrans, forceOpt_eq _ forceNat_eq, forceDest_eq]

def forceName (n : Name) (k : Name → β) : β := k n

def forceState (s : PState) (k : PState → β) : β :=
  forceList forceAtom s.name (fun n => forceList forceTrans s.trans (fun t =>
    forceList forceName s.exits (fun e => forceList forceName s.attrs (fun a => k ⟨n, t, e, a⟩))))

theorem forceState_eq (s : PState) (k : PState → β) : forceState s k = k s := by
  simp [forceState, forceList_eq _ forceAtom_eq, forceList_eq _ forceTrans_eq,
    forceList_eq _ (fun _ _ => rfl : ∀ a (k : Name → β), forceName a k = k a)]

def forceBlock (b : PBlock) (k : PBlock → β) : β :=
  forceList forceState b.states (fun s => forceNat b.subcount (fun m =>
    forceNat b.subblockcount (fun n => k ⟨s, m, n⟩)))

theorem forceBlock_eq (b : PBlock) (k : PBlock → β) : forceBlock b k = k b := by
  simp [forceBlock, forceNat_eq, forceList_eq _ forceState_eq]

/-- `instActions`, evaluated at each step. -/
def instActionsF (env : Env) : List (Ident × Ident) → PBlock → (Option PBlock → β) → β
  | [], b, k => k (some b)
  | (i, m) :: l, b, k => match instantiate env b (.id i) m with
    | none => k none
    | some b => forceBlock b (fun b => instActionsF env l b k)

theorem instActionsF_eq (env : Env) (l : List (Ident × Ident)) (b : PBlock) (k : Option PBlock → β) :
    instActionsF env l b k = k (instActions env l b) := by
  induction l generalizing b with
  | nil => rfl
  | cons x l ih =>
    obtain ⟨i, m⟩ := x
    unfold instActionsF instActions
    cases instantiate env b (.id i) m with
    | none => rfl
    | some b => simp only [forceBlock_eq, ih]

/-- `blockActions`, evaluated at each step. -/
def blockActionsF : Env → List BlockDecl → Option (PBlock × Option Nat) →
    (Option (PBlock × Option Nat) → β) → β
  | _, [], r, k => k r
  | env, d :: ds, _, k =>
    if (env.blocks.lookup d.name).isSome then k none
    else instActionsF env d.insts ⟨[], 1, 1⟩ (fun r => match r with
      | none => k none
      | some b => match stateActions env d.states (b, none) with
        | none => k none
        | some (b, cur) => forceBlock b (fun b => forceBlock (fixup b) (fun b =>
          blockActionsF { env with blocks := env.blocks ++ [(d.name, b)] } ds (some (b, cur)) k)))

theorem blockActionsF_eq (env : Env) (ds : List BlockDecl) (r : Option (PBlock × Option Nat))
    (k : Option (PBlock × Option Nat) → β) : blockActionsF env ds r k = k (blockActions env ds r) := by
  induction ds generalizing env r with
  | nil => rfl
  | cons d ds ih =>
    unfold blockActionsF blockActions blockAction
    split
    · rfl
    · rw [instActionsF_eq]
      cases instActions env d.insts ⟨[], 1, 1⟩ with
      | none => rfl
      | some b =>
        simp only
        cases stateActions env d.states (b, none) with
        | none => rfl
        | some x =>
          obtain ⟨b, c⟩ := x
          simp only
          rw [forceBlock_eq, forceBlock_eq, ih]

/-- The check that an input file gives the states `l` and the start state `s`. -/
def compilesTo (src : Source) (l : List NState) (s : Nat) : Bool :=
  blockActionsF ⟨src.tokens, src.abbrevs, []⟩ src.blocks none (fun r => match r with
    | some (b, some cur) => decide (b.states.map PState.final = l) && decide (cur = s)
    | _ => false)

theorem compile_of_check {src : Source} {l : List NState} {s : Nat} (h : compilesTo src l s = true) :
    src.compile = some (⟨l, src.tokens.length, src.exit, src.attr⟩, s) := by
  unfold compilesTo at h
  rw [blockActionsF_eq] at h
  unfold Source.compile
  cases hb : blockActions ⟨src.tokens, src.abbrevs, []⟩ src.blocks none with
  | none => rw [hb] at h; simp at h
  | some x =>
    obtain ⟨b, c⟩ := x
    rw [hb] at h
    cases c with
    | none => simp at h
    | some c =>
      simp only [Bool.and_eq_true, decide_eq_true_eq] at h
      simp only [h.1, h.2]

end Jbo.Dfasyn
