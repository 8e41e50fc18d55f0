import Verif.TransCompThm
import Verif.TransInflThm

/-!
# Classes, contexts, and the lookup of glosses

Properties C53 and C54.
-/

namespace Jbo.Trans

open Jbo Jbo.TransSpec

/-! ## The table -/

theorem basicTrans_plain {x : Word} (h : '*' ∉ x) : basicTrans x = x := by
  have := basicTrans_spec (ss := []) (last := x) h (by simp)
  simpa [starred] using this

theorem makePlural_plain {x : Word} (h : '*' ∉ x) : Plural x (makePlural x) := by
  cases makePlural_spec (ss := []) (last := x) h with
  | plain h => exact h

theorem appendEr_plain {x : Word} (h : '*' ∉ x) : Agent x (appendEr x) := by
  cases appendEr_spec (ss := []) (last := x) h with
  | plain h => exact h

theorem appendIng_plain {x : Word} (h : '*' ∉ x) : Participle x (appendIng x) := by
  cases appendIng_spec (ss := []) (last := x) h with
  | plain h => exact h

/-- The letters of the classes. -/
theorem classOf_some {k : Char} {c : Class} (h : classOf k = some c) :
    (k, c) ∈ [('D', Class.discrete), ('E', .discrete), ('S', .substance), ('A', .actor), ('P', .property), ('R', .reverse), ('I', .idiomatic)] := by
  unfold classOf at h
  repeat' split at h
  · rename_i hk
    rcases hk with rfl | rfl <;> cases h <;> simp
  all_goals simp_all

/-- The table by class. -/
def cellOf : Class → Ctx → String × Form × String
  | .discrete, .noun => ("", .plural, "")
  | .discrete, .verb => ("being ", .nounOrPlural, "")
  | .discrete, .qual => ("", .x, "-ish")
  | .discrete, .tag => ("", .nounOrPlural, "")
  | .substance, .noun => ("", .x, "")
  | .substance, .verb => ("being ", .nounOrX, "")
  | .substance, .qual => ("", .x, "-ish")
  | .substance, .tag => ("", .nounOrX, "")
  | .actor, .noun => ("", .agent, "")
  | .actor, .verb => ("", .participle, "")
  | .actor, .qual => ("", .participle, "")
  | .actor, .tag => ("", .agent, "")
  | .property, .noun => ("", .x, " thing(s)")
  | .property, .verb => ("being ", .x, "")
  | .property, .qual => ("", .x, "")
  | .property, .tag => ("", .x, " thing(s)")
  | .reverse, .noun => ("thing(s) ", .x, "")
  | .reverse, .verb => ("being ", .x, "")
  | .reverse, .qual => ("", .x, "")
  | .reverse, .tag => ("thing(s) ", .x, "")
  | .idiomatic, .noun => ("thing(s) ", .participle, "")
  | .idiomatic, .verb => ("", .participle, "")
  | .idiomatic, .qual => ("", .participle, "")
  | .idiomatic, .tag => ("thing(s) ", .participle, "")

theorem cell_cellOf : ∀ e ∈ [('D', Class.discrete), ('E', .discrete), ('S', .substance), ('A', .actor), ('P', .property), ('R', .reverse),
    ('I', .idiomatic)], ∀ ctx ∈ [Ctx.noun, .verb, .qual, .tag], cell e.1 (suffixOf ctx) = some (cellOf e.2 ctx) := by decide +kernel

theorem glossIn_cellOf {x noun : Word} (hx : '*' ∉ x) (c : Class) (ctx : Ctx) :
    ∃ y, Shape x noun (cellOf c ctx).2.1 y ∧ glossIn c ctx x noun = (cellOf c ctx).1.toList ++ y ++ (cellOf c ctx).2.2.toList := by
  have e0 : "".toList = [] := rfl
  have hp := makePlural_plain hx
  have he := appendEr_plain hx
  have hi := appendIng_plain hx
  have hb := basicTrans_plain hx
  have hnp : ∃ y, Shape x noun .nounOrPlural y ∧ y = if noun ≠ [] then noun else makePlural x := by
    by_cases hn : noun = []
    · exact ⟨_, .elseP hn hp, by simp [hn]⟩
    · exact ⟨_, .nounP hn, by simp [hn]⟩
  have hnx : ∃ y, Shape x noun .nounOrX y ∧ y = if noun ≠ [] then noun else x := by
    by_cases hn : noun = []
    · exact ⟨_, .elseX hn, by simp [hn]⟩
    · exact ⟨_, .nounX hn, by simp [hn]⟩
  obtain ⟨yp, hyp, ep⟩ := hnp
  obtain ⟨yx, hyx, ex⟩ := hnx
  cases c <;> cases ctx
  · exact ⟨_, .plural hp, by unfold glossIn cellOf; simp only [e0, List.nil_append, List.append_nil]⟩
  · refine ⟨_, hyp, ?_⟩
    rw [ep]
    by_cases hn : noun = [] <;> unfold glossIn cellOf <;> simp only [hn, e0, List.nil_append, List.append_nil, ne_eq, not_true_eq_false, not_false_eq_true, if_true, if_false]
  · exact ⟨_, .x, by unfold glossIn cellOf; simp only [hb, e0, List.nil_append, List.append_nil]⟩
  · refine ⟨_, hyp, ?_⟩
    rw [ep]
    by_cases hn : noun = [] <;> unfold glossIn cellOf <;> simp only [hn, e0, List.nil_append, List.append_nil, ne_eq, not_true_eq_false, not_false_eq_true, if_true, if_false]
  · exact ⟨_, .x, by unfold glossIn cellOf; simp only [hb, e0, List.nil_append, List.append_nil]⟩
  · refine ⟨_, hyx, ?_⟩
    rw [ex]
    by_cases hn : noun = [] <;> unfold glossIn cellOf <;> simp only [hn, e0, List.nil_append, List.append_nil, ne_eq, not_true_eq_false, not_false_eq_true, if_true, if_false]
  · exact ⟨_, .x, by unfold glossIn cellOf; simp only [e0, List.nil_append, List.append_nil]⟩
  · refine ⟨_, hyx, ?_⟩
    rw [ex]
    by_cases hn : noun = [] <;> unfold glossIn cellOf <;> simp only [hn, e0, List.nil_append, List.append_nil, ne_eq, not_true_eq_false, not_false_eq_true, if_true, if_false]
  · exact ⟨_, .agent he, by unfold glossIn cellOf; simp only [e0, List.nil_append, List.append_nil]⟩
  · exact ⟨_, .participle hi, by unfold glossIn cellOf; simp only [e0, List.nil_append, List.append_nil]⟩
  · exact ⟨_, .participle hi, by unfold glossIn cellOf; simp only [e0, List.nil_append, List.append_nil]⟩
  · exact ⟨_, .agent he, by unfold glossIn cellOf; simp only [e0, List.nil_append, List.append_nil]⟩
  · exact ⟨_, .x, by unfold glossIn cellOf; simp only [e0, List.nil_append, List.append_nil]⟩
  · exact ⟨_, .x, by unfold glossIn cellOf; simp only [e0, List.nil_append, List.append_nil]⟩
  · exact ⟨_, .x, by unfold glossIn cellOf; simp only [e0, List.nil_append, List.append_nil]⟩
  · exact ⟨_, .x, by unfold glossIn cellOf; simp only [e0, List.nil_append, List.append_nil]⟩
  · exact ⟨_, .x, by unfold glossIn cellOf; simp only [e0, List.nil_append, List.append_nil]⟩
  · exact ⟨_, .x, by unfold glossIn cellOf; simp only [e0, List.nil_append, List.append_nil]⟩
  · exact ⟨_, .x, by unfold glossIn cellOf; simp only [e0, List.nil_append, List.append_nil]⟩
  · exact ⟨_, .x, by unfold glossIn cellOf; simp only [e0, List.nil_append, List.append_nil]⟩
  · exact ⟨_, .participle hi, by unfold glossIn cellOf; simp only [e0, List.nil_append, List.append_nil]⟩
  · exact ⟨_, .participle hi, by unfold glossIn cellOf; simp only [e0, List.nil_append, List.append_nil]⟩
  · exact ⟨_, .participle hi, by unfold glossIn cellOf; simp only [e0, List.nil_append, List.append_nil]⟩
  · exact ⟨_, .participle hi, by unfold glossIn cellOf; simp only [e0, List.nil_append, List.append_nil]⟩

/-- C53: the gloss of an entry with class and context is the one of the table. -/
theorem fixTrans_table {k : Char} {x noun out : Word} {ctx : Ctx} (hx : '*' ∉ x) (h : fixTrans (k :: ';' :: x) ctx noun = some out) :
    ∃ pre f post y, cell k (suffixOf ctx) = some (pre, f, post) ∧ Shape x noun f y ∧ out = pre.toList ++ y ++ post.toList := by
  rw [fixTrans] at h
  cases hk : classOf k with
  | none => rw [hk] at h; cases h
  | some c =>
    rw [hk] at h
    cases h
    obtain ⟨y, h1, h2⟩ := glossIn_cellOf (noun := noun) hx c ctx
    exact ⟨_, _, _, y, cell_cellOf _ (classOf_some hk) ctx (by cases ctx <;> simp), h1, h2⟩

/-- C53: a letter of no class gives the null pointer, and only such a letter does. -/
theorem fixTrans_none {t noun : Word} {ctx : Ctx} :
    fixTrans t ctx noun = none ↔ ∃ k x, t = k :: ';' :: x ∧ ∀ c, cell k c = none := by
  constructor
  · intro h
    unfold fixTrans at h
    split at h
    · rename_i k x
      cases hk : classOf k with
      | some c => rw [hk] at h; cases h
      | none =>
        refine ⟨k, x, rfl, ?_⟩
        intro c
        unfold classOf at hk
        repeat' split at hk
        all_goals first
          | cases hk
          | skip
        unfold cell
        split <;> simp_all
    · cases h
  · rintro ⟨k, x, rfl, h⟩
    rw [fixTrans]
    cases hk : classOf k with
    | none => rfl
    | some c =>
      have := classOf_some hk
      have hn := h 'n'
      simp only [List.mem_cons, Prod.mk.injEq, List.not_mem_nil, or_false] at this
      rcases this with ⟨rfl, rfl⟩ | ⟨rfl, rfl⟩ | ⟨rfl, rfl⟩ | ⟨rfl, rfl⟩ | ⟨rfl, rfl⟩ | ⟨rfl, rfl⟩ | ⟨rfl, rfl⟩ <;> cases hn

/-- C53: an entry without a class stands for itself. -/
theorem fixTrans_plain {t noun : Word} {ctx : Ctx} (h : ∀ k x, t ≠ k :: ';' :: x) : fixTrans t ctx noun = some t := by
  unfold fixTrans
  split
  · rename_i k x
    exact absurd rfl (h k x)
  · rfl

example : fixTrans "D;baby".toList .noun [] = some "baby(ies)".toList ∧ fixTrans "D;man".toList .verb "man/men".toList = some "being man/men".toList ∧
    fixTrans "A;give".toList .tag [] = some "give-r(s)".toList ∧ fixTrans "R;supported".toList .noun [] = some "thing(s) supported".toList := by
  decide +kernel

/-! ## Lookup -/

variable {dict : Word → Option Word} {morf : Word → Morf}

/-- C54: place 0 is the verb of place 1. -/
theorem adv_zero (n : Nat) (w : Word) (c : Ctx) : adv dict morf n w 0 c = adv dict morf n w 1 .verb := by
  cases n <;> simp [adv]

/-- The entry with place and context, or the one with the place. -/
theorem direct_order (w : Word) (p : Int) (c : Ctx) (t : Word) :
    direct dict w p c = some t ↔
      dict (w ++ (toString p).toList ++ [suffixOf c]) = some t ∨
        (dict (w ++ (toString p).toList ++ [suffixOf c]) = none ∧ dict (w ++ (toString p).toList) = some t) := by
  show (match dict (w ++ (toString p).toList ++ [suffixOf c]) with
    | some t => some t
    | none => dict (w ++ (toString p).toList)) = some t ↔ _
  cases dict (w ++ (toString p).toList ++ [suffixOf c]) <;> simp

/-- C54: an entry for the place decides, whatever else the dictionary holds. -/
theorem adv_entry {w t out : Word} {p : Int} {c : Ctx} (hp : p ≠ 0) (h : direct dict w p c = some t) (ht : t.head? ≠ some '@')
    (hf : fixTrans t c ((dict (w ++ (toString p).toList ++ ['n'])).getD []) = some out) (n : Nat) :
    adv dict morf (n + 1) w p c = .ok out := by
  rw [adv]
  simp only [hp, if_false]
  rw [h]
  have hn : atSign t = none := by
    cases t with
    | nil => rfl
    | cons a t => exact if_neg (fun e => ht (by simp [e]))
  have hf' : fixTrans t c ((dict (w ++ digits p ++ ['n'])).getD []) = some out := hf
  dsimp only
  rw [hn]
  dsimp only
  rw [hf']

/-- C54: an explicit gloss for the context is printed as it stands. -/
theorem adv_explicit {w t : Word} {p : Int} {c : Ctx} (hp : p ≠ 0) (h : dict (w ++ (toString p).toList ++ [suffixOf c]) = some t)
    (ht : t.head? ≠ some '@') (hk : ∀ k x, t ≠ k :: ';' :: x) (n : Nat) : adv dict morf (n + 1) w p c = .ok t :=
  adv_entry hp ((direct_order w p c t).2 (Or.inl h)) ht (fixTrans_plain hk) n

/-- Letters of a redirection. -/
theorem redirect_parts {u : Word} {d : Char} {r : Word} (hu : ∀ x ∈ u, isAlpha x = true) (hd : isDigit d = true) :
    (u ++ d :: r).takeWhile isAlpha = u ∧ (u ++ d :: r).dropWhile isAlpha = d :: r := by
  have hda : isAlpha d = false := by
    simp only [isDigit, Bool.and_eq_true, decide_eq_true_eq] at hd
    simp only [isAlpha, Bool.or_eq_false_iff, Bool.and_eq_false_iff, decide_eq_false_iff_not]
    have h1 : ('0'.val.toNat ≤ d.val.toNat) ∧ d.val.toNat ≤ '9'.val.toNat := hd
    have e : ∀ a b : Char, a ≤ b ↔ a.val.toNat ≤ b.val.toNat := fun a b => Iff.rfl
    simp only [e]
    have : '0'.val.toNat = 48 ∧ '9'.val.toNat = 57 ∧ 'a'.val.toNat = 97 ∧ 'A'.val.toNat = 65 := by decide
    omega
  induction u with
  | nil => simp [hda]
  | cons x u ih =>
    have hx := hu x (by simp)
    have := ih (fun y hy => hu y (by simp [hy]))
    simp [List.takeWhile_cons, List.dropWhile_cons, hx, this]

/-- C54: a redirection `@word digit` is the gloss of that place of that word in the same context. -/
theorem adv_redirect {w u r : Word} {d : Char} {p : Int} {c : Ctx} (hp : p ≠ 0) (h : direct dict w p c = some ('@' :: (u ++ d :: r)))
    (hu : ∀ x ∈ u, isAlpha x = true) (hd : isDigit d = true) (n : Nat) :
    adv dict morf (n + 1) w p c = adv dict morf n u ((d.toNat : Int) - 48) c := by
  obtain ⟨h1, h2⟩ := redirect_parts (r := r) hu hd
  rw [adv]
  simp only [hp, if_false]
  rw [h]
  dsimp only
  rw [show atSign ('@' :: (u ++ d :: r)) = some (u ++ d :: r) from rfl]
  dsimp only
  rw [h1, h2]
  simp only [hd, if_true]
  rfl

/-- C54: entries that redirect in a circle never give a gloss. -/
theorem adv_circle {S : Word → Int → Prop} {c : Ctx}
    (h : ∀ w p, S w p → p ≠ 0 ∧ ∃ u d r, direct dict w p c = some ('@' :: (u ++ d :: r)) ∧ (∀ x ∈ u, isAlpha x = true) ∧ isDigit d = true ∧
      S u ((d.toNat : Int) - 48)) (n : Nat) : ∀ w p, S w p → adv dict morf n w p c = .error .diverge := by
  induction n with
  | zero => intro w p _; rfl
  | succ n ih =>
    intro w p hs
    obtain ⟨hp, u, d, r, h1, h2, h3, h4⟩ := h w p hs
    rw [adv_redirect hp h1 h2 h3]
    exact ih u _ h4

/-- C54: an entry of an unknown class is a null pointer that is read. -/
theorem adv_bad_class {w x : Word} {k : Char} {p : Int} {c : Ctx} (hp : p ≠ 0) (hk : k ≠ '@') (h : direct dict w p c = some (k :: ';' :: x))
    (hc : ∀ c, cell k c = none) (n : Nat) : adv dict morf (n + 1) w p c = .error .nullDeref := by
  have hf : fixTrans (k :: ';' :: x) c ((dict (w ++ digits p ++ ['n'])).getD []) = none := fixTrans_none.2 ⟨k, x, rfl, hc⟩
  rw [adv]
  simp only [hp, if_false]
  rw [h]
  dsimp only
  rw [show atSign (k :: ';' :: x) = none from if_neg hk]
  dsimp only
  rw [hf]

/-- C54: without an entry for the place, the entry of the word alone is printed with question marks. -/
theorem adv_headword {w t : Word} {p : Int} {c : Ctx} (hp : p ≠ 0) (h : direct dict w p c = none) (ht : dict w = some t) (n : Nat) :
    adv dict morf (n + 1) w p c = .ok (t ++ "??".toList) := by
  rw [adv]
  simp only [hp, if_false]
  rw [h]
  dsimp only
  rw [ht]

/-- C54: a gloss that comes neither from an entry for the place nor from a template bears question marks. -/
theorem adv_uncertain {w out : Word} {p : Int} {c : Ctx} (hp : p ≠ 0) (h : direct dict w p c = none) {n : Nat}
    (hpat : attemptPattern dict (adv dict morf n) w p c = .ok none) (ho : adv dict morf (n + 1) w p c = .ok out) :
    Ends out "??" := by
  rw [adv] at ho
  simp only [hp, if_false] at ho
  rw [h, hpat] at ho
  dsimp only at ho
  split at ho
  · cases ho; exact ⟨_, rfl⟩
  · split at ho
    · cases ho
    · cases ho; exact ⟨_, rfl⟩
    · cases ho; exact ⟨[], rfl⟩

/-! ## The depth of the recursion -/

/-- `b` knows everything that `a` knows. -/
def Le (a b : Adv) : Prop := ∀ w p c, a w p c ≠ .error .diverge → b w p c = a w p c

theorem substBase_other (a : Adv) (base : Word) {x : Char} (r : Word) (hx : x ≠ '%') : substBase a base (x :: r) =
    match substBase a base r with
    | .error e => .error e
    | .ok u => .ok (x :: u) := by
  rw [substBase.eq_def]
  split
  · rename_i e; cases e
  · rename_i e; cases e; exact absurd rfl hx
  · rename_i e; cases e; exact absurd rfl hx
  · rename_i e; cases e; rfl

section
variable {a b : Adv} (hab : Le a b)
include hab

theorem substBase_le (base : Word) : ∀ t : Word, substBase a base t ≠ .error .diverge → substBase b base t = substBase a base t
  | [], _ => rfl
  | x :: r, h => by
    by_cases hx : x = '%'
    · subst hx
      match r, h with
      | [], h => rfl
      | [_], h => rfl
      | d :: k :: r, h =>
        rw [substBase] at h ⊢
        rw [substBase]
        have ih := substBase_le base r
        cases ha : a base (digitOf d) (ctxOf k) with
        | error e =>
          rw [ha] at h
          rw [hab _ _ _ (by rw [ha]; exact h), ha]
        | ok t =>
          rw [ha] at h
          rw [hab _ _ _ (by rw [ha]; simp), ha]
          dsimp only at h ⊢
          cases hs : substBase a base r with
          | error e =>
            rw [hs] at h
            have : e ≠ .diverge := fun e' => h (by rw [e'])
            rw [ih (by rw [hs]; simpa using this), hs]
          | ok u => rw [ih (by rw [hs]; simp), hs]
    · rw [substBase_other a base r hx] at h ⊢
      rw [substBase_other b base r hx]
      have ih := substBase_le base r
      cases hs : substBase a base r with
      | error e =>
        rw [hs] at h
        have : e ≠ .diverge := fun e' => h (by rw [e'])
        rw [ih (by rw [hs]; simpa using this), hs]
      | ok u => rw [ih (by rw [hs]; simp), hs]

theorem template_le (prec : Nat) (suffix : Bool) (g : Nat) (orig : Word) (comp : List Comp) (p : Int) (c : Ctx)
    (h : template dict a prec suffix g orig comp p c ≠ .error .diverge) :
    template dict b prec suffix g orig comp p c = template dict a prec suffix g orig comp p c := by
  rw [template] at h ⊢
  rw [template]
  cases hc : templateCut suffix g orig comp p with
  | error e => rfl
  | ok x =>
    obtain ⟨generic, specific, k⟩ := x
    rw [hc] at h
    dsimp only at h ⊢
    split
    · rfl
    · rename_i trans full hf
      rw [hf] at h
      dsimp only at h
      cases hat : atSign trans with
      | some r =>
        rw [hat] at h
        dsimp only at h ⊢
        cases ha : a specific (digitOf (r.headD '\x00')) c with
        | error e =>
          rw [ha] at h
          have : e ≠ .diverge := fun e' => h (by rw [e'])
          rw [hab _ _ _ (by rw [ha]; simpa using this), ha]
        | ok t => rw [hab _ _ _ (by rw [ha]; simp), ha]
      | none =>
        rw [hat] at h
        dsimp only at h ⊢
        cases hs : substBase a specific trans with
        | error e =>
          rw [hs] at h
          have : e ≠ .diverge := fun e' => h (by rw [e'])
          rw [substBase_le hab specific trans (by rw [hs]; simpa using this), hs]
        | ok t => rw [substBase_le hab specific trans (by rw [hs]; simp), hs]

theorem gathers_le (prec : Nat) (suffix : Bool) (orig : Word) (comp : List Comp) (p : Int) (c : Ctx) : ∀ gs : List Nat,
    gathers dict a prec suffix orig comp p c gs ≠ .error .diverge →
    gathers dict b prec suffix orig comp p c gs = gathers dict a prec suffix orig comp p c gs
  | [], _ => rfl
  | g :: gs, h => by
    rw [gathers] at h ⊢
    rw [gathers]
    have ht := template_le (dict := dict) hab prec suffix g orig comp p c
    have ih := gathers_le prec suffix orig comp p c gs
    cases hs : template dict a prec suffix g orig comp p c with
    | error e =>
      rw [hs] at h
      have : e ≠ .diverge := fun e' => h (by rw [e'])
      rw [ht (by rw [hs]; simpa using this), hs]
    | ok o =>
      rw [hs] at h
      rw [ht (by rw [hs]; simp), hs]
      cases o with
      | none => rfl
      | some t =>
        dsimp only at h ⊢
        by_cases hq : t ≠ ['-']
        · rw [if_pos hq, if_pos hq]
        · rw [if_neg hq] at h
          rw [if_neg hq, if_neg hq]
          exact ih h

theorem precs_le (orig : Word) (comp : List Comp) (p : Int) (c : Ctx) : ∀ ps : List (Nat × Bool),
    precs dict a orig comp p c ps ≠ .error .diverge → precs dict b orig comp p c ps = precs dict a orig comp p c ps
  | [], _ => rfl
  | (q, s) :: ps, h => by
    rw [precs] at h ⊢
    rw [precs]
    have ht := gathers_le (dict := dict) hab q s orig comp p c [1, 2]
    have ih := precs_le orig comp p c ps
    cases hs : gathers dict a q s orig comp p c [1, 2] with
    | error e =>
      rw [hs] at h
      have : e ≠ .diverge := fun e' => h (by rw [e'])
      rw [ht (by rw [hs]; simpa using this), hs]
    | ok o =>
      rw [hs] at h
      rw [ht (by rw [hs]; simp), hs]
      cases o with
      | none => exact ih h
      | some t => rfl

theorem attemptPattern_le (w : Word) (p : Int) (c : Ctx) (h : attemptPattern dict a w p c ≠ .error .diverge) :
    attemptPattern dict b w p c = attemptPattern dict a w p c := by
  rw [attemptPattern] at h ⊢
  rw [attemptPattern]
  cases hc : Lujvo.canonLujvo w with
  | none => rfl
  | some canon =>
    rw [hc] at h
    dsimp only at h ⊢
    by_cases hp : (!canon.contains '+') = true
    · rw [if_pos hp, if_pos hp]
    · rw [if_neg hp] at h
      rw [if_neg hp, if_neg hp]
      cases hs : splitComps canon with
      | error e => rfl
      | ok comp =>
        rw [hs] at h
        match comp, h with
        | [], h => exact precs_le hab _ _ _ _ _ h
        | [k], h =>
          dsimp only at h ⊢
          cases hk : k.place p with
          | error e => rfl
          | ok m =>
            rw [hk] at h
            dsimp only at h ⊢
            cases ha : a k.text m c with
            | error e =>
              rw [ha] at h
              have : e ≠ .diverge := fun e' => h (by rw [e'])
              rw [hab _ _ _ (by rw [ha]; simpa using this), ha]
            | ok t => rw [hab _ _ _ (by rw [ha]; simp), ha]
        | k :: l :: r, h => exact precs_le hab _ _ _ _ _ h

theorem lujvoParts_le (p : Int) : ∀ cs : List Comp, lujvoParts a p cs ≠ .error .diverge → lujvoParts b p cs = lujvoParts a p cs
  | [], _ => rfl
  | k :: cs, h => by
    rw [lujvoParts] at h ⊢
    rw [lujvoParts]
    have ih := lujvoParts_le p cs
    cases hk : k.place (if cs = [] then p else 1) with
    | error e => rfl
    | ok m =>
      rw [hk] at h
      dsimp only at h ⊢
      cases ha : a k.text m (if cs = [] then .noun else .qual) with
      | error e =>
        rw [ha] at h
        have : e ≠ .diverge := fun e' => h (by rw [e'])
        rw [hab _ _ _ (by rw [ha]; simpa using this), ha]
      | ok t =>
        rw [ha] at h
        rw [hab _ _ _ (by rw [ha]; simp), ha]
        dsimp only at h ⊢
        cases hs : lujvoParts a p cs with
        | error e =>
          rw [hs] at h
          have : e ≠ .diverge := fun e' => h (by rw [e'])
          rw [ih (by rw [hs]; simpa using this), hs]
        | ok ts => rw [ih (by rw [hs]; simp), hs]

theorem prefixParts_le (c : Ctx) : ∀ cs : List Comp, prefixParts a c cs ≠ .error .diverge → prefixParts b c cs = prefixParts a c cs
  | [], _ => rfl
  | k :: cs, h => by
    rw [prefixParts] at h ⊢
    rw [prefixParts]
    have ih := prefixParts_le c cs
    cases hk : k.place 1 with
    | error e => rfl
    | ok m =>
      rw [hk] at h
      dsimp only at h ⊢
      cases ha : a k.text m (if cs = [] then c else .qual) with
      | error e =>
        rw [ha] at h
        have : e ≠ .diverge := fun e' => h (by rw [e'])
        rw [hab _ _ _ (by rw [ha]; simpa using this), ha]
      | ok t =>
        rw [ha] at h
        rw [hab _ _ _ (by rw [ha]; simp), ha]
        dsimp only at h ⊢
        cases hs : prefixParts a c cs with
        | error e =>
          rw [hs] at h
          have : e ≠ .diverge := fun e' => h (by rw [e'])
          rw [ih (by rw [hs]; simpa using this), hs]
        | ok ts => rw [ih (by rw [hs]; simp), hs]

theorem transLujvo_le (w : Word) (p : Int) (h : transLujvo a w p ≠ .error .diverge) : transLujvo b w p = transLujvo a w p := by
  rw [transLujvo] at h ⊢
  rw [transLujvo]
  cases hc : Lujvo.canonLujvo w with
  | none => rfl
  | some canon =>
    rw [hc] at h
    dsimp only at h ⊢
    cases hs : splitComps canon with
    | error e => rfl
    | ok comp =>
      rw [hs] at h
      dsimp only at h ⊢
      by_cases hl : comp.length < 2
      · rw [if_pos hl, if_pos hl]
      · rw [if_neg hl] at h
        rw [if_neg hl, if_neg hl]
        have ih := lujvoParts_le hab p comp
        cases hq : lujvoParts a p comp with
        | error e =>
          rw [hq] at h
          have : e ≠ .diverge := fun e' => h (by rw [e'])
          rw [ih (by rw [hq]; simpa using this), hq]
        | ok ts => rw [ih (by rw [hq]; simp), hq]

theorem fuivlaPrefix_le (w : Word) (c : Ctx) (h : fuivlaPrefix a w c ≠ .error .diverge) : fuivlaPrefix b w c = fuivlaPrefix a w c := by
  rw [fuivlaPrefix] at h ⊢
  rw [fuivlaPrefix]
  cases hc : Lujvo.canonLujvo w with
  | none => rfl
  | some canon =>
    rw [hc] at h
    dsimp only at h ⊢
    cases hs : splitComps canon with
    | error e => rfl
    | ok comp =>
      rw [hs] at h
      dsimp only at h ⊢
      have ih := prefixParts_le hab c comp
      cases hq : prefixParts a c comp with
      | error e =>
        rw [hq] at h
        have : e ≠ .diverge := fun e' => h (by rw [e'])
        rw [ih (by rw [hq]; simpa using this), hq]
      | ok ts => rw [ih (by rw [hq]; simp), hq]

theorem transUnknown_le (w : Word) (p : Int) (c : Ctx) (h : transUnknown morf a w p c ≠ .error .diverge) :
    transUnknown morf b w p c = transUnknown morf a w p c := by
  rw [transUnknown] at h ⊢
  rw [transUnknown]
  by_cases hp : w.contains '+' = true
  · rw [if_pos hp] at h
    rw [if_pos hp, if_pos hp]
    exact transLujvo_le hab w p h
  · rw [if_neg hp] at h
    rw [if_neg hp, if_neg hp]
    cases hm : morf w with
    | giveUp => rfl
    | hopeless => rfl
    | cmene => rfl
    | lujvo =>
      rw [hm] at h
      exact transLujvo_le hab w p h
    | fuivla k =>
      rw [hm] at h
      dsimp only at h ⊢
      have ih := fuivlaPrefix_le hab ((w.take k).filter (· != ',')) c
      cases hq : fuivlaPrefix a ((w.take k).filter (· != ',')) c with
      | error e =>
        rw [hq] at h
        have : e ≠ .diverge := fun e' => h (by rw [e'])
        rw [ih (by rw [hq]; simpa using this), hq]
      | ok t => rw [ih (by rw [hq]; simp), hq]

end

/-- C54: a result that is found at one depth is the result at every larger depth. -/
theorem adv_le (n : Nat) : Le (adv dict morf n) (adv dict morf (n + 1)) := by
  induction n with
  | zero => intro w p c h; exact absurd rfl h
  | succ n ih =>
    intro w p0 c0 h
    rw [adv] at h
    rw [adv, adv]
    generalize (if p0 = 0 then (1 : Int) else p0) = p at h ⊢
    generalize (if p0 = 0 then Ctx.verb else c0) = c at h ⊢
    split
    · rename_i t hd
      rw [hd] at h
      dsimp only at h
      cases hat : atSign t with
      | none => rfl
      | some r =>
        rw [hat] at h
        dsimp only at h ⊢
        split
        · rename_i d r' he
          rw [he] at h
          dsimp only at h
          by_cases hdig : isDigit d = true
          · rw [if_pos hdig] at h
            rw [if_pos hdig, if_pos hdig]
            exact ih _ _ _ h
          · rw [if_neg hdig, if_neg hdig]
        · rfl
    · rename_i hd
      rw [hd] at h
      dsimp only at h
      split
      · rfl
      · rename_i hw
        rw [hw] at h
        dsimp only at h
        have h1 := attemptPattern_le (dict := dict) ih w p c
        have h2 := transUnknown_le (morf := morf) ih w p c
        cases ha : attemptPattern dict (adv dict morf n) w p c with
        | error e =>
          rw [ha] at h
          have : e ≠ .diverge := fun e' => h (by rw [e'])
          rw [h1 (by rw [ha]; simpa using this), ha]
        | ok o =>
          rw [ha] at h
          rw [h1 (by rw [ha]; simp), ha]
          cases o with
          | some t => rfl
          | none =>
            dsimp only at h ⊢
            cases hu : transUnknown morf (adv dict morf n) w p c with
            | error e =>
              rw [hu] at h
              have : e ≠ .diverge := fun e' => h (by rw [e'])
              rw [h2 (by rw [hu]; simpa using this), hu]
            | ok o => rw [h2 (by rw [hu]; simp), hu]

theorem adv_stable {n m : Nat} (hnm : n ≤ m) {w : Word} {p : Int} {c : Ctx} (h : adv dict morf n w p c ≠ .error .diverge) :
    adv dict morf m w p c = adv dict morf n w p c := by
  induction m with
  | zero => rw [Nat.le_zero.1 hnm]
  | succ m ih =>
    by_cases hm : n ≤ m
    · have := ih hm
      rw [adv_le m w p c (by rw [this]; exact h), this]
    · rw [show n = m + 1 by omega]

end Jbo.Trans
