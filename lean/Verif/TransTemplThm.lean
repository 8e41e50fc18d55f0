import Verif.TransTermThm

/-!
# Templates and parts of words

Property C55.
-/

namespace Jbo.Trans

open Jbo Jbo.TransSpec

variable {dict : Word → Option Word} {morf : Word → Morf}

theorem place_toComp (g : Group) {p : Nat} (hp : 1 ≤ p ∧ p ≤ 5) : (toComp g).place p = .ok (placeOf (convPlaces g.convs) p) := by
  unfold Comp.place
  rw [if_pos (by omega)]
  have : p = 1 ∨ p = 2 ∨ p = 3 ∨ p = 4 ∨ p = 5 := by omega
  rcases this with rfl | rfl | rfl | rfl | rfl <;> rfl

/-- The conversions and the word of a group stand behind what is before it. -/
theorem groups_at : ∀ {a ws : List Word} {g : Group}, g ∈ groupsAt a ws →
    ∃ pre post, ws = pre ++ g.convs ++ g.base :: post ∧ g.before = a ++ pre
  | a, [], g, h => by simp [groupsAt] at h
  | a, w :: ws, g, h => by
    have tail : g ∈ groupsAt (a ++ [w]) ws → ∃ pre post, w :: ws = pre ++ g.convs ++ g.base :: post ∧ g.before = a ++ pre := by
      intro h
      obtain ⟨pre, post, e, hb⟩ := groups_at h
      exact ⟨w :: pre, post, by simp [e], by simpa using hb⟩
    rw [groupsAt] at h
    split at h
    · rcases List.mem_cons.1 h with rfl | h
      · exact ⟨[], ws, rfl, by simp⟩
      · exact tail h
    · split at h
      · simp at h
      · rename_i g' gs e
        rcases List.mem_cons.1 h with rfl | h
        · obtain ⟨pre, post, e', hb⟩ := groups_at (a := a ++ [w]) (ws := ws) (g := g') (by rw [e]; simp)
          have hb' := groupsAt_before e
          rw [hb'] at hb
          have : pre = [] := by simpa using hb
          subst this
          exact ⟨[], post, by simp [e'], by simp⟩
        · exact tail (by rw [e]; exact List.mem_cons_of_mem _ h)

theorem join_drop {a b : List Word} (ha : a ≠ []) (hb : b ≠ []) : (join (a ++ b)).drop (join a).length = '+' :: join b := by
  rw [join_append ha hb, List.drop_left]

/-- C55: a template for the last parts.  The key holds the text from the word behind the conversions on, with its `+`, and
the place the conversions lead to; the rest is what stands before the conversions. -/
theorem suffix_cut {ws : List Word} {gs : List Group} (hgs : groupsAt [] ws = gs) {g p : Nat} (hg : 1 ≤ g) (hl : g ≤ gs.length)
    (hp : 1 ≤ p ∧ p ≤ 5) :
    ∃ G post, gs[gs.length - g]? = some G ∧ ws = G.before ++ G.convs ++ G.base :: post ∧
      templateCut true g (join ws) (gs.map toComp) p =
        .ok ((if G.before ++ G.convs = [] then join (G.base :: post) else '+' :: join (G.base :: post)), join G.before,
          placeOf (convPlaces G.convs) p) := by
  have hlt : gs.length - g < gs.length := by omega
  refine ⟨gs[gs.length - g], ?_⟩
  have hmem : gs[gs.length - g] ∈ groupsAt [] ws := by rw [hgs]; exact List.getElem_mem _
  generalize hG : gs[gs.length - g] = G at hmem
  obtain ⟨pre, post, e, hb⟩ := groups_at hmem
  rw [List.nil_append] at hb
  have hget : gs[gs.length - g]? = some G := by rw [List.getElem?_eq_getElem hlt, hG]
  refine ⟨post, hget, by rw [hb, e], ?_⟩
  rw [templateCut, if_pos rfl, if_neg (by rw [List.length_map]; omega), List.length_map, List.getElem?_map, hget]
  dsimp only [Option.map]
  rw [place_toComp G hp]
  dsimp only
  have h1 : (join ws).take (toComp G).start = join G.before := by
    show (join ws).take (join G.before).length = _
    rw [e, ← hb]
    by_cases hpre : G.before = []
    · rw [hpre]; simp [join, List.intercalate]
    · rw [List.append_assoc, join_append hpre (by simp), List.take_left]
  have h2 : (join ws).drop (toComp G).pureStart =
      if G.before ++ G.convs = [] then join (G.base :: post) else '+' :: join (G.base :: post) := by
    show (join ws).drop (join (G.before ++ G.convs)).length = _
    rw [e, ← hb]
    by_cases hpre : G.before ++ G.convs = []
    · rw [hpre, if_pos rfl]; simp [join, List.intercalate]
    · rw [if_neg hpre, join_drop hpre (by simp)]
  rw [h1, h2]

theorem later_before {ws : List Word} : ∀ {gs : List Group}, groupsAt [] ws = gs → ∀ {g : Nat} {G : Group}, 1 ≤ g → gs[g]? = some G → G.before ≠ []
  | [], _, g, G, _, h => by simp at h
  | g0 :: gs, hgs, g, G, hg, h => by
    obtain ⟨k, rfl⟩ : ∃ k, g = k + 1 := ⟨g - 1, by omega⟩
    rw [List.getElem?_cons_succ] at h
    have := groups_later hgs G (List.mem_of_getElem? h)
    intro h0
    rw [h0] at this
    simp at this

/-- C55: a template for the first parts.  The key holds the text of these parts with a `+` at the end, and the place the
conversions of the last of them lead to; the rest is everything behind. -/
theorem prefix_cut {ws : List Word} {gs : List Group} (hgs : groupsAt [] ws = gs) {g p : Nat} (hg : 1 ≤ g) (hl : g < gs.length)
    (hp : 1 ≤ p ∧ p ≤ 5) :
    ∃ G H post, gs[g]? = some G ∧ gs[g - 1]? = some H ∧ ws = G.before ++ post ∧ G.before ≠ [] ∧ post ≠ [] ∧
      templateCut false g (join ws) (gs.map toComp) p = .ok (join G.before ++ ['+'], join post, placeOf (convPlaces H.convs) p) := by
  have hG : gs[g]? = some gs[g] := List.getElem?_eq_getElem hl
  have hH : gs[g - 1]? = some gs[g - 1] := List.getElem?_eq_getElem (by omega)
  have hmem : gs[g] ∈ groupsAt [] ws := by rw [hgs]; exact List.getElem_mem _
  obtain ⟨pre, post, e, hb, hpost⟩ := groups_cut hmem
  rw [List.nil_append] at hb
  have hpre : gs[g].before ≠ [] := later_before hgs hg hG
  refine ⟨gs[g], gs[g - 1], post, hG, hH, by rw [hb, e], hpre, hpost, ?_⟩
  rw [templateCut, if_neg (by simp), List.getElem?_map, List.getElem?_map, hG, hH]
  dsimp only [Option.map]
  rw [place_toComp _ hp]
  dsimp only
  have h0 : (toComp gs[g]).start + 1 = (join gs[g].before ++ ['+']).length := by
    show (join gs[g].before).length + 1 = _
    simp
  have h1 : join ws = (join gs[g].before ++ ['+']) ++ join post := by
    rw [e, ← hb, join_append hpre hpost]
    simp
  rw [h0, h1, List.take_left, List.drop_left]

/-! ## The order of the templates -/

/-- C55: the precedences from 5 down to 0, at each the last parts before the first. -/
theorem precOrder_spec : precOrder = [5, 4, 3, 2, 1, 0].flatMap (fun q => [(q, true), (q, false)]) := by decide

/-- C55: the first template that gives something decides. -/
theorem precs_first {a : Adv} {orig : Word} {comp : List Comp} {p : Int} {c : Ctx} {q : Nat} {s : Bool} {t : Word} :
    ∀ {before after : List (Nat × Bool)}, (∀ e ∈ before, template dict a e.1 e.2 1 orig comp p c = .ok none) →
      template dict a q s 1 orig comp p c = .ok (some t) → t ≠ ['-'] →
      precs dict a orig comp p c (before ++ (q, s) :: after) = .ok (some t)
  | [], after, _, h, ht => by
    rw [List.nil_append, precs, gathers, h]
    dsimp only
    rw [if_pos ht]
  | e :: before, after, hb, h, ht => by
    obtain ⟨q', s'⟩ := e
    have h' : template dict a q' s' 1 orig comp p c = .ok none := hb (q', s') (by simp)
    rw [List.cons_append, precs, gathers, h']
    exact precs_first (fun e he => hb e (by simp [he])) h ht

/-- A template without an entry gives nothing. -/
theorem template_none {a : Adv} {prec : Nat} {suffix : Bool} {g : Nat} {orig : Word} {comp : List Comp} {p : Int} {c : Ctx}
    {generic specific : Word} {n : Nat} (h : templateCut suffix g orig comp p = .ok (generic, specific, n))
    (h1 : dict ('*' :: (toString (prec : Int)).toList ++ generic ++ (toString (n : Int)).toList ++ [suffixOf c]) = none)
    (h2 : dict ('*' :: (toString (prec : Int)).toList ++ generic ++ (toString (n : Int)).toList) = none) :
    template dict a prec suffix g orig comp p c = .ok none := by
  have h1' : dict ('*' :: digits prec ++ generic ++ digits n ++ [suffixOf c]) = none := h1
  have h2' : dict ('*' :: digits prec ++ generic ++ digits n) = none := h2
  rw [template, h]
  dsimp only
  rw [h1', h2']

/-- A template with an entry for the context is filled in and printed. -/
theorem template_some {a : Adv} {prec : Nat} {suffix : Bool} {g : Nat} {orig : Word} {comp : List Comp} {p : Int} {c : Ctx}
    {generic specific t : Word} {n : Nat} (h : templateCut suffix g orig comp p = .ok (generic, specific, n))
    (h1 : dict ('*' :: (toString (prec : Int)).toList ++ generic ++ (toString (n : Int)).toList ++ [suffixOf c]) = some t)
    (ht : t.head? ≠ some '@') {out : Word} (ho : substBase a specific t = .ok out) :
    template dict a prec suffix g orig comp p c = .ok (some out) := by
  have h1' : dict ('*' :: digits prec ++ generic ++ digits n ++ [suffixOf c]) = some t := h1
  have hn : atSign t = none := by
    cases t with
    | nil => rfl
    | cons a t => exact if_neg (fun e => ht (by simp [e]))
  rw [template, h]
  dsimp only
  rw [h1']
  dsimp only
  rw [hn]
  dsimp only
  rw [ho]
  rfl

/-! ## Filling in -/

/-- A text in which `%`, a digit and a letter stand for a gloss of the base. -/
inductive Filled (gloss : Int → Ctx → Word → Prop) : Word → Word → Prop
  | nil : Filled gloss [] []
  | char {c : Char} {t o : Word} : c ≠ '%' → Filled gloss t o → Filled gloss (c :: t) (c :: o)
  | slot {d k : Char} {ctx : Ctx} {t o x : Word} : (k, ctx) ∈ [('v', Ctx.verb), ('q', .qual), ('t', .tag)] ∨ (k ∉ ['v', 'q', 't'] ∧ ctx = .noun) →
      gloss ((d.toNat : Int) - 48) ctx x → Filled gloss t o → Filled gloss ('%' :: d :: k :: t) (x ++ o)

theorem ctxOf_spec (k : Char) (ctx : Ctx) :
    ctxOf k = ctx ↔ (k, ctx) ∈ [('v', Ctx.verb), ('q', .qual), ('t', .tag)] ∨ (k ∉ ['v', 'q', 't'] ∧ ctx = .noun) := by
  unfold ctxOf
  by_cases h1 : k = 'v'
  · subst h1; cases ctx <;> simp
  · by_cases h2 : k = 'q'
    · subst h2; cases ctx <;> simp
    · by_cases h3 : k = 't'
      · subst h3; cases ctx <;> simp
      · cases ctx <;> simp [h1, h2, h3]

/-- C55: every slot of a template is filled with the gloss it asks for, and the rest is copied. -/
theorem substBase_spec {a : Adv} {base : Word} : ∀ {t o : Word}, substBase a base t = .ok o ↔ Filled (fun p c x => a base p c = .ok x) t o
  | [], o => by
    rw [substBase]
    constructor
    · rintro h
      cases h
      exact .nil
    · intro h
      cases h
      rfl
  | x :: r, o => by
    by_cases hx : x = '%'
    · subst hx
      match r with
      | [] =>
        constructor
        · intro h; cases h
        · intro h
          cases h with
          | char h _ => exact absurd rfl h
      | [y] =>
        constructor
        · intro h; cases h
        · intro h
          cases h with
          | char h _ => exact absurd rfl h
      | d :: k :: r =>
        rw [substBase]
        have ih := fun o => @substBase_spec a base r o
        constructor
        · intro h
          cases ha : a base (digitOf d) (ctxOf k) with
          | error e => rw [ha] at h; cases h
          | ok t =>
            rw [ha] at h
            dsimp only at h
            cases hs : substBase a base r with
            | error e => rw [hs] at h; cases h
            | ok u =>
              rw [hs] at h
              cases h
              exact .slot ((ctxOf_spec k _).1 rfl) ha ((ih u).1 hs)
        · intro h
          cases h with
          | char h _ => exact absurd rfl h
          | slot hk hg hf =>
            rw [(ctxOf_spec k _).2 hk, digitOf, hg]
            dsimp only
            rw [(ih _).2 hf]
    · rw [substBase_other a base r hx]
      have ih := fun o => @substBase_spec a base r o
      constructor
      · intro h
        cases hs : substBase a base r with
        | error e => rw [hs] at h; cases h
        | ok u =>
          rw [hs] at h
          cases h
          exact .char hx ((ih u).1 hs)
      · intro h
        cases h with
        | char _ h => rw [(ih _).2 h]
        | slot _ _ _ => exact absurd rfl hx

/-! ## Part by part -/

/-- The glosses of the parts: qualifiers in the place that is first under the conversions, and the last part. -/
inductive Parts (gloss : Word → Int → Ctx → Word → Prop) (p : Nat) (lastCtx : Ctx) : List Group → List Word → Prop
  | last {G : Group} {x : Word} : gloss G.base (placeOf (convPlaces G.convs) p) lastCtx x → Parts gloss p lastCtx [G] [x]
  | qual {G H : Group} {gs : List Group} {x : Word} {xs : List Word} : gloss G.base (placeOf (convPlaces G.convs) 1) .qual x →
      Parts gloss p lastCtx (H :: gs) xs → Parts gloss p lastCtx (G :: H :: gs) (x :: xs)

theorem lujvoParts_spec {a : Adv} {p : Nat} (hp : 1 ≤ p ∧ p ≤ 5) : ∀ {gs : List Group} {ts : List Word}, gs ≠ [] →
    (lujvoParts a p (gs.map toComp) = .ok ts ↔ Parts (fun w n c x => a w n c = .ok x) p .noun gs ts)
  | [], _, h => absurd rfl h
  | [G], ts, _ => by
    rw [List.map_cons, List.map_nil, lujvoParts, if_pos rfl, if_pos rfl, place_toComp G hp]
    dsimp only
    rw [lujvoParts]
    constructor
    · intro h
      cases ha : a (toComp G).text (placeOf (convPlaces G.convs) p) .noun with
      | error e => rw [ha] at h; cases h
      | ok t =>
        rw [ha] at h
        cases h
        exact .last ha
    · intro h
      cases h with
      | last h =>
        have h : a (toComp G).text (placeOf (convPlaces G.convs) p) .noun = .ok _ := h
        rw [h]
  | G :: H :: gs, ts, _ => by
    have hne : (H :: gs).map toComp ≠ [] := by simp
    rw [List.map_cons, lujvoParts, if_neg hne, if_neg hne]
    have hq : (toComp G).place 1 = .ok (placeOf (convPlaces G.convs) 1) := place_toComp G (p := 1) (by decide)
    rw [hq]
    dsimp only
    have ih := fun ts => @lujvoParts_spec a p hp (H :: gs) ts (by simp)
    constructor
    · intro h
      cases ha : a (toComp G).text (placeOf (convPlaces G.convs) 1) .qual with
      | error e => rw [ha] at h; cases h
      | ok t =>
        rw [ha] at h
        dsimp only at h
        cases hs : lujvoParts a p ((H :: gs).map toComp) with
        | error e => rw [hs] at h; cases h
        | ok u =>
          rw [hs] at h
          cases h
          exact .qual ha ((ih u).1 hs)
    · intro h
      cases h with
      | qual h1 h2 =>
        have h1 : a (toComp G).text (placeOf (convPlaces G.convs) 1) .qual = .ok _ := h1
        rw [h1]
        dsimp only
        rw [(ih _).2 h2]

theorem prefixParts_spec {a : Adv} {c : Ctx} : ∀ {gs : List Group} {ts : List Word}, gs ≠ [] →
    (prefixParts a c (gs.map toComp) = .ok ts ↔ Parts (fun w n c x => a w n c = .ok x) 1 c gs ts)
  | [], _, h => absurd rfl h
  | [G], ts, _ => by
    have hq : (toComp G).place 1 = .ok (placeOf (convPlaces G.convs) 1) := place_toComp G (p := 1) (by decide)
    rw [List.map_cons, List.map_nil, prefixParts, if_pos rfl, hq]
    dsimp only
    rw [prefixParts]
    constructor
    · intro h
      cases ha : a (toComp G).text (placeOf (convPlaces G.convs) 1) c with
      | error e => rw [ha] at h; cases h
      | ok t =>
        rw [ha] at h
        cases h
        exact .last ha
    · intro h
      cases h with
      | last h =>
        have h : a (toComp G).text (placeOf (convPlaces G.convs) 1) c = .ok _ := h
        rw [h]
  | G :: H :: gs, ts, _ => by
    have hne : (H :: gs).map toComp ≠ [] := by simp
    have hq : (toComp G).place 1 = .ok (placeOf (convPlaces G.convs) 1) := place_toComp G (p := 1) (by decide)
    rw [List.map_cons, prefixParts, if_neg hne, hq]
    dsimp only
    have ih := fun ts => @prefixParts_spec a c (H :: gs) ts (by simp)
    constructor
    · intro h
      cases ha : a (toComp G).text (placeOf (convPlaces G.convs) 1) .qual with
      | error e => rw [ha] at h; cases h
      | ok t =>
        rw [ha] at h
        dsimp only at h
        cases hs : prefixParts a c ((H :: gs).map toComp) with
        | error e => rw [hs] at h; cases h
        | ok u =>
          rw [hs] at h
          cases h
          exact .qual ha ((ih u).1 hs)
    · intro h
      cases h with
      | qual h1 h2 =>
        have h1 : a (toComp G).text (placeOf (convPlaces G.convs) 1) .qual = .ok _ := h1
        rw [h1]
        dsimp only
        rw [(ih _).2 h2]

/-- C55: a lujvo of at least two components is glossed part by part, joined by `-`. -/
theorem transLujvo_spec {a : Adv} {w : Word} {ws : List Word} {p : Nat} (hp : 1 ≤ p ∧ p ≤ 5) (hws : ∀ x ∈ ws, Plain x) (hf : Fits ws)
    (hc : Lujvo.canonLujvo w = some (join ws)) (h2 : 2 ≤ (groupsAt [] ws).length) {out : Option Word} :
    transLujvo a w p = .ok out ↔
      ∃ ts, Parts (fun w n c x => a w n c = .ok x) p .noun (groupsAt [] ws) ts ∧ out = some (['-'].intercalate ts) := by
  have hne : groupsAt [] ws ≠ [] := by intro h; rw [h] at h2; simp at h2
  rw [transLujvo, hc]
  dsimp only
  rw [splitComps_spec ws hws, if_pos hf]
  dsimp only
  rw [if_neg (by rw [List.length_map]; omega)]
  constructor
  · intro h
    cases hs : lujvoParts a p ((groupsAt [] ws).map toComp) with
    | error e => rw [hs] at h; cases h
    | ok ts =>
      rw [hs] at h
      cases h
      exact ⟨ts, (lujvoParts_spec hp hne).1 hs, rfl⟩
  · rintro ⟨ts, h, rfl⟩
    rw [(lujvoParts_spec hp hne).2 h]

/-- C55: a fu'ivla of stage 3 is the gloss of its first part and its last part in brackets, without the hyphen letter. -/
theorem fuivla_spec {a : Adv} {w pre c1 c2 stem : Word} {hy : Char} {p : Int} {c : Ctx} (hp : '+' ∉ w)
    (hw : w = pre ++ c1 ++ hy :: c2 ++ stem) (hm : morf w = .fuivla pre.length) (h1 : ∀ x ∈ c1, x = ',') (hhy : hy ≠ ',')
    (h2 : ∀ x ∈ c2, x = ',') (hst : stem.head? ≠ some ',') {out : Option Word} :
    transUnknown morf a w p c = .ok out ↔
      ∃ t, fuivlaPrefix a (pre.filter (· != ',')) c = .ok t ∧ out = some (t ++ "-[".toList ++ stem ++ "]".toList) := by
  have drop1 : ∀ (l r : Word), (∀ x ∈ l, x = ',') → r.head? ≠ some ',' → (l ++ r).dropWhile (· == ',') = r := by
    intro l r hl hr
    induction l with
    | nil =>
      cases r with
      | nil => rfl
      | cons x r =>
        have : x ≠ ',' := fun e => hr (by simp [e])
        simp [List.dropWhile_cons, this]
    | cons y l ih =>
      have hy := hl y (by simp)
      subst hy
      simp [List.dropWhile_cons]
      simpa using ih (fun x hx => hl x (by simp [hx]))
  have hb : behindHyphen (w.drop pre.length) = stem := by
    rw [hw, List.append_assoc, List.append_assoc, List.drop_left, behindHyphen,
      drop1 c1 _ h1 (by simpa using hhy), List.cons_append, List.drop_succ_cons, List.drop_zero, drop1 c2 stem h2 hst]
  have ht : w.take pre.length = pre := by
    rw [hw, List.append_assoc, List.append_assoc, List.take_left]
  rw [transUnknown, if_neg (by simpa using hp), hm]
  dsimp only
  rw [hb, ht]
  constructor
  · intro h
    cases hs : fuivlaPrefix a (pre.filter (· != ',')) c with
    | error e => rw [hs] at h; cases h
    | ok t =>
      rw [hs] at h
      cases h
      exact ⟨t, rfl, rfl⟩
  · rintro ⟨t, h, rfl⟩
    rw [h]

/-- `djarspageti`: the prefix is a full rafsi, the hyphen `r`. -/
example : adv (ofList [("cidja1", "D;food")]) (fun w => if w = "cidjrspageti".toList then .fuivla 4 else .giveUp) 6 "cidjrspageti".toList 1 .noun =
    .ok "food(s)-[spageti]??".toList := by decide +kernel

/-- `bakyklama` in two parts. -/
example : groupsAt [] ["bakni".toList, "te".toList, "klama".toList] = [⟨[], [], "bakni".toList⟩, ⟨["bakni".toList], ["te".toList], "klama".toList⟩] ∧
    templateCut true 1 "bakni+te+klama".toList
      ([⟨[], [], "bakni".toList⟩, ⟨["bakni".toList], ["te".toList], "klama".toList⟩].map toComp) 1 =
      .ok ("+klama".toList, "bakni".toList, 3) := by decide +kernel

example : templateCut false 1 "se+bakni+te+klama".toList ((groupsAt [] ["se".toList, "bakni".toList, "te".toList, "klama".toList]).map toComp) 1 =
      .ok ("se+bakni+".toList, "te+klama".toList, 2) := by decide +kernel

end Jbo.Trans
