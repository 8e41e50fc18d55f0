import Verif.DfaParseSpec
import Verif.DfaExprThm
import Verif.DfaScanThm
/-!
# Files of dfasyn have one reading
-/

namespace Jbo.DfaParse
open Jbo.DfaScan (Tok Kw)
open Jbo.DfaExpr (T Reads)
open Jbo.Dfasyn (Expr)

/-! ## What is read has been written -/

theorem options_sound (ts : List Tok) : ts = (options ts).1.flatMap (fun o => .sign '|' :: optW o) ++ (options ts).2 := by
  fun_induction options ts with
  | case1 s r ih => simp only [List.flatMap_cons, (show ∀ s, optW (some s) = [.str s] from fun _ => rfl), List.cons_append, List.nil_append, List.append_assoc]; rw [← ih]
  | case2 r _ ih => simp only [List.flatMap_cons, (show optW none = [] from rfl), List.cons_append, List.nil_append, List.append_assoc]; rw [← ih]
  | case3 => rfl

theorem inlines_sound (ts : List Tok) : ts = (inlines ts).1.flatMap (fun o => .sign '|' :: inlOptW o) ++ (inlines ts).2 := by
  fun_induction inlines ts with
  | case1 a b c r ih => simp only [List.flatMap_cons, (show ∀ a b c, inlOptW (some (a, b, c)) = [.sign '<', .str a, .sign ':', .str b, .arrow, .str c, .sign '>'] from fun _ _ _ => rfl), List.cons_append, List.nil_append, List.append_assoc]; rw [← ih]
  | case2 r _ ih => simp only [List.flatMap_cons, (show inlOptW none = [] from rfl), List.cons_append, List.nil_append, List.append_assoc]; rw [← ih]
  | case3 => rfl

theorem step_sound (ts : List Tok) : ts = stepW (step ts).1 ++ (step ts).2 := by
  fun_cases step ts
  · rename_i a b c r
    simp only [stepW, inlW, List.cons_append, List.nil_append]
    rw [← inlines_sound r]
  · rename_i s r
    simp only [stepW, List.append_assoc]
    rw [← options_sound r]; rfl
  · simp only [stepW, List.append_assoc]
    rw [← options_sound ts]; rfl

theorem steps_sound (n : Nat) (ts : List Tok) : ts = (steps n ts).1.flatMap (fun s => .sign ';' :: stepW s) ++ (steps n ts).2 := by
  fun_induction steps n ts with
  | case1 n r ih =>
    simp only [List.flatMap_cons, List.cons_append, List.append_assoc]
    rw [← ih, ← step_sound r]
  | case2 => simp

theorem dests_sound (ts : List Tok) : ts = (dests ts).1.flatMap (fun d => [.sign ',', .str d]) ++ (dests ts).2 := by
  fun_induction dests ts with
  | case1 s r ih => simp only [List.flatMap_cons, List.cons_append, List.nil_append]; rw [← ih]
  | case2 => rfl

theorem goal_sound {ts r : List Tok} {g : Goal} (h : goal ts = some (g, r)) : ts = goalW g ++ r := by
  unfold goal at h
  split at h
  · rename_i d r0
    cases h
    simp only [goalW, List.cons_append]
    rw [← dests_sound r0]
  · cases h; rfl
  · cases h

theorem trans_sound {ts r : List Tok} {t : Trans} (h : trans ts = some (t, r)) : ts = transW t ++ r := by
  unfold trans at h
  split at h
  · cases h
  · rename_i g r' hg
    cases h
    simp only [transW, List.append_assoc]
    rw [← goal_sound hg, ← steps_sound, ← step_sound]

theorem transs_sound : ∀ (n : Nat) {ts r : List Tok} {l : List Trans}, transs n ts = some (l, r) → ts = l.flatMap transW ++ r := by
  intro n
  induction n with
  | zero => intro ts r l h; simp only [transs] at h; cases h; rfl
  | succ n ih =>
    intro ts r l h
    rcases ts with _ | ⟨t, ts⟩
    · simp only [transs] at h; cases h; rfl
    · simp only [transs] at h
      split at h
      · split at h
        · cases h
        · rename_i x r' hx
          split at h
          · cases h
          · rename_i l' r'' hl
            cases h
            rw [List.flatMap_cons, List.append_assoc, ← ih hl]
            exact trans_sound hx
      · cases h; rfl

theorem attr_sound (ts : List Tok) : ts = attrW (attrOf ts).1 ++ (attrOf ts).2 := by
  fun_cases attrOf ts <;> simp [attrW]

theorem states_sound : ∀ (n : Nat) {ts r : List Tok} {l : List State}, states n ts = some (l, r) → ts = l.flatMap stateW ++ r := by
  intro n
  induction n with
  | zero => intro ts r l h; simp only [states] at h; cases h; rfl
  | succ n ih =>
    intro ts r l h
    rw [states.eq_def] at h
    split at h
    · rename_i heq
      cases heq
      split at h
      · cases h
      · rename_i l' r' hl
        split at h
        · cases h
        · rename_i ss r'' hs
          cases h
          simp only [List.flatMap_cons, stateW, List.cons_append, List.append_assoc]
          rw [← ih hs, ← transs_sound _ hl, ← attr_sound]
    · cases h; rfl

theorem insts_sound (ts : List Tok) : ts = (insts ts).1.flatMap (fun p => [.str p.1, .sign ':', .str p.2]) ++ (insts ts).2 := by
  fun_induction insts ts with
  | case1 n m r ih => simp only [List.flatMap_cons, List.cons_append, List.nil_append]; rw [← ih]
  | case2 => rfl

theorem block_sound {ts r : List Tok} {b : Block} (h : block ts = some (b, r)) : .kw .block :: ts = blockW b ++ r := by
  unfold block at h
  split at h
  · rename_i n r0
    split at h
    · rename_i ss r' hs
      cases h
      have := states_sound _ hs
      simp only [blockW, List.cons_append, List.append_assoc, List.nil_append]
      rw [← this, ← insts_sound]
    · cases h
  · cases h

theorem toT_sound {t : Tok} {x : T} (h : toT t = some x) : t = exprW x := by
  unfold toT at h
  split at h <;> cases h <;> rfl

theorem toT_exprW (x : T) : toT (exprW x) = some x := by cases x <;> rfl

theorem exprToks_sound (ts : List Tok) : ts = (exprToks ts).1.map exprW ++ (exprToks ts).2 := by
  induction ts with
  | nil => rfl
  | cons t r ih =>
    simp only [exprToks]
    split
    · rename_i x hx
      simp only [List.map_cons, List.cons_append]
      rw [← ih, ← toT_sound hx]
    · rfl

theorem arrowed_sound {ts r : List Tok} {e : Expr} {n : Str} (h : arrowed ts = some (e, n, r)) :
    ∃ xs, Reads 0 xs e ∧ ts = xs.map exprW ++ .arrow :: .str n :: r := by
  unfold arrowed at h
  split at h
  · rename_i n' r' hr
    split at h
    · rename_i e' he
      cases h
      exact ⟨_, (DfaExpr.parse_reads _ _).1 he, by rw [← hr, ← exprToks_sound]⟩
    · cases h
  · cases h

theorem result_sound {ts r : List Tok} {early : Bool} {l : Line} (h : result early ts = some (l, r)) :
    (∃ n, l = .bare early n ∧ ts = .str n :: r) ∨ ∃ xs e n, l = .result early e n ∧ Reads 0 xs e ∧ ts = xs.map exprW ++ .arrow :: .str n :: r := by
  unfold result at h
  split at h
  · rename_i e n r' ha
    cases h
    obtain ⟨xs, h1, h2⟩ := arrowed_sound ha
    exact .inr ⟨xs, e, n, rfl, h1, h2⟩
  · split at h
    · rename_i n r' he
      cases h
      have := exprToks_sound ts
      rw [he] at this
      exact .inl ⟨n, rfl, by simpa [exprW] using this⟩
    · cases h

theorem symresult_sound {ts r : List Tok} {early : Bool} {l : Line} (h : symresult early ts = some (l, r)) :
    ∃ xs e n, l = .symresult early e n ∧ Reads 0 xs e ∧ ts = xs.map exprW ++ .arrow :: .str n :: r := by
  unfold symresult at h
  split at h
  · rename_i e n r' ha
    cases h
    obtain ⟨xs, h1, h2⟩ := arrowed_sound ha
    exact ⟨xs, e, n, rfl, h1, h2⟩
  · cases h

theorem line_sound {ts r : List Tok} {l : Line} (h : line ts = some (l, r)) : ∃ w, LineW l w ∧ ts = w ++ r := by
  unfold line at h
  split at h
  · rcases result_sound h with ⟨n, rfl, rfl⟩ | ⟨xs, e, n, rfl, h1, rfl⟩
    · exact ⟨_, .bare n, rfl⟩
    · exact ⟨_, .result xs e n h1, by simp⟩
  · rcases result_sound h with ⟨n, rfl, rfl⟩ | ⟨xs, e, n, rfl, h1, rfl⟩
    · exact ⟨_, .early n, rfl⟩
    · exact ⟨_, .earlyresult xs e n h1, by simp⟩
  · obtain ⟨xs, e, n, rfl, h1, rfl⟩ := symresult_sound h
    exact ⟨_, .symresult xs e n h1, by simp⟩
  · obtain ⟨xs, e, n, rfl, h1, rfl⟩ := symresult_sound h
    exact ⟨_, .earlysymresult xs e n h1, by simp⟩
  · rename_i n r0
    split at h
    · rename_i e he
      cases h
      exact ⟨_, .symbol _ e n ((DfaExpr.parse_reads _ _).1 he), by simp only [List.cons_append]; rw [← exprToks_sound]⟩
    · cases h
  · cases h; exact ⟨_, .defresult _, rfl⟩
  · cases h; exact ⟨_, .type _, rfl⟩
  · cases h

theorem attrLine_sound {ts r : List Tok} {l : Line} (h : attrLine ts = some (l, r)) : ∃ w, LineW l w ∧ l.late = true ∧ ts = w ++ r := by
  unfold attrLine at h
  split at h
  · cases h
  · cases h
  · rename_i h1 h2
    obtain ⟨w, hw, rfl⟩ := line_sound h
    refine ⟨w, hw, ?_, rfl⟩
    cases hw <;> first | rfl | (exfalso; first | exact h1 _ rfl | exact h2 _ rfl)

theorem strs_sound (ts : List Tok) : ts = (strs ts).1.map .str ++ (strs ts).2 := by
  fun_induction strs ts with
  | case1 s r ih => simp only [List.map_cons, List.cons_append, List.nil_append]; rw [← ih]
  | case2 => rfl

theorem pipes_sound (ts : List Tok) : ts = (pipes ts).1.flatMap (fun s => [.sign '|', .str s]) ++ (pipes ts).2 := by
  fun_induction pipes ts with
  | case1 s r ih => simp only [List.flatMap_cons, List.cons_append, List.nil_append]; rw [← ih]
  | case2 => rfl

theorem decl_sound {ts r : List Tok} {d : Decl} (h : decl ts = some (d, r)) : ∃ w, DeclW d w ∧ ts = w ++ r := by
  unfold decl at h
  split at h
  · obtain ⟨⟨b, r'⟩, hb, h⟩ := Option.map_eq_some_iff.1 h
    cases h
    exact ⟨_, .block b, block_sound hb⟩
  · rename_i s r0
    cases h
    exact ⟨_, .tokens s _, by simp only [List.cons_append]; rw [← strs_sound]⟩
  · cases h; exact ⟨_, .prefix _, rfl⟩
  · rename_i n s r0
    cases h
    exact ⟨_, .abbrev n s _, by simp only [List.cons_append]; rw [← pipes_sound]⟩
  · obtain ⟨⟨l, r'⟩, hl, h⟩ := Option.map_eq_some_iff.1 h
    cases h
    obtain ⟨w, h1, h2, rfl⟩ := attrLine_sound hl
    exact ⟨_, .attr l w h1 h2, rfl⟩
  · cases h; exact ⟨_, .defattr _, rfl⟩
  · obtain ⟨⟨l, r'⟩, hl, h⟩ := Option.map_eq_some_iff.1 h
    cases h
    obtain ⟨w, h1, rfl⟩ := line_sound hl
    exact ⟨_, .exit l w h1, rfl⟩

theorem file_sound : ∀ (n : Nat) (ts : List Tok) (ds : List Decl), file n ts = some ds → FileW ds ts := by
  intro n
  induction n with
  | zero =>
    intro ts ds h
    cases ts with
    | nil => simp only [file] at h; cases h; exact .nil
    | cons t ts => simp only [file] at h; cases h
  | succ n ih =>
    intro ts ds h
    cases ts with
    | nil => simp only [file] at h; cases h; exact .nil
    | cons t ts =>
      simp only [file] at h
      split at h
      · cases h
      · rename_i d r hd
        obtain ⟨ds', h1, rfl⟩ := Option.map_eq_some_iff.1 h
        obtain ⟨w, hw, he⟩ := decl_sound hd
        rw [he]
        exact .cons d w ds' r hw (ih _ _ h1)

/-! ## What has been written is read -/

/-- What can follow a part of a transition. -/
def Joint : List Tok → Prop
  | .sign ';' :: _ | .arrow :: _ | .sign '=' :: _ => True
  | _ => False

/-- What can follow the last part. -/
def End : List Tok → Prop
  | .arrow :: _ | .sign '=' :: _ => True
  | _ => False

theorem end_joint {r : List Tok} (h : End r) : Joint r := by
  unfold End at h; split at h <;> first | trivial | cases h

theorem goal_end (g : Goal) (r : List Tok) : End (goalW g ++ r) := by cases g <;> trivial

theorem options_complete (l : List (Option Str)) (r : List Tok) (hr : Joint r) :
    options (l.flatMap (fun o => .sign '|' :: optW o) ++ r) = (l, r) := by
  induction l with
  | nil => unfold Joint at hr; split at hr <;> first | rfl | cases hr
  | cons o l ih =>
    rw [List.flatMap_cons, List.append_assoc]
    generalize hx : l.flatMap (fun o => .sign '|' :: optW o) ++ r = x at *
    cases o with
    | some s => simp only [optW, List.cons_append, List.nil_append, options, ih]
    | none =>
      simp only [optW, List.cons_append, List.nil_append]
      rw [options.eq_def]
      split
      · rename_i heq
        simp only [List.cons.injEq, true_and] at heq
        rw [heq] at hx
        exfalso
        cases l with
        | nil => rw [List.flatMap_nil, List.nil_append] at hx; rw [hx] at hr; exact hr
        | cons o l => rw [List.flatMap_cons] at hx; simp at hx
      · rename_i heq
        simp only [List.cons.injEq, true_and] at heq
        rw [← heq, ih]
      · rename_i h1 h2
        exact absurd rfl (h2 x)

theorem inlines_complete (l : List (Option (Str × Str × Str))) (r : List Tok) (hr : Joint r) :
    inlines (l.flatMap (fun o => .sign '|' :: inlOptW o) ++ r) = (l, r) := by
  induction l with
  | nil => unfold Joint at hr; split at hr <;> first | rfl | cases hr
  | cons o l ih =>
    rw [List.flatMap_cons, List.append_assoc]
    generalize hx : l.flatMap (fun o => .sign '|' :: inlOptW o) ++ r = x at *
    cases o with
    | some s => obtain ⟨a, b, c⟩ := s; simp only [inlOptW, inlW, List.cons_append, List.nil_append, inlines, ih]
    | none =>
      simp only [inlOptW, List.cons_append, List.nil_append]
      rw [inlines.eq_def]
      split
      · rename_i heq
        simp only [List.cons.injEq, true_and] at heq
        rw [heq] at hx
        exfalso
        cases l with
        | nil => rw [List.flatMap_nil, List.nil_append] at hx; rw [hx] at hr; exact hr
        | cons o l => rw [List.flatMap_cons] at hx; simp at hx
      · rename_i heq
        simp only [List.cons.injEq, true_and] at heq
        rw [← heq, ih]
      · rename_i h1 h2
        exact absurd rfl (h2 x)

theorem step_complete (s : Step) (r : List Tok) (hr : Joint r) : step (stepW s ++ r) = (s, r) := by
  cases s with
  | inl f l =>
    obtain ⟨a, b, c⟩ := f
    have := inlines_complete l r hr
    simp only [stepW, inlW, List.cons_append, List.nil_append, step, this]
  | toks f l =>
    have h1 := options_complete l r hr
    cases f with
    | some s =>
      simp only [stepW, List.append_assoc, (show optW (some s) = [.str s] from rfl), List.cons_append, List.nil_append, step, h1]
    | none =>
      simp only [stepW, List.append_assoc, (show optW none = [] from rfl), List.nil_append]
      have h2 : ∃ t x, l.flatMap (fun o => .sign '|' :: optW o) ++ r = t :: x ∧ t ≠ .sign '<' ∧ ∀ s, t ≠ .str s := by
        cases l with
        | nil => unfold Joint at hr; split at hr <;> first | exact ⟨_, _, rfl, by decide, nofun⟩ | cases hr
        | cons o l => exact ⟨.sign '|', _, rfl, by decide, nofun⟩
      obtain ⟨t, x, hx, n1, n2⟩ := h2
      rw [hx] at h1 ⊢
      rw [step.eq_def]
      split
      · rename_i heq; cases heq; exact absurd rfl n1
      · rename_i heq; cases heq; exact absurd rfl (n2 _)
      · rw [h1]

theorem flat_joint (l : List Step) (r : List Tok) (hr : Joint r) : Joint (l.flatMap (fun s => .sign ';' :: stepW s) ++ r) := by
  cases l with
  | nil => exact hr
  | cons s l => trivial

theorem steps_complete (l : List Step) (r : List Tok) (hr : End r) : ∀ n, l.length ≤ n →
    steps n (l.flatMap (fun s => .sign ';' :: stepW s) ++ r) = (l, r) := by
  induction l with
  | nil =>
    intro n _
    unfold End at hr
    split at hr
    · cases n <;> rfl
    · cases n <;> rfl
    · cases hr
  | cons s l ih =>
    intro n hn
    obtain ⟨n, rfl⟩ : ∃ m, n = m + 1 := ⟨n - 1, by simp at hn; omega⟩
    have h1 := step_complete s _ (flat_joint l r (end_joint hr))
    simp only [List.flatMap_cons, List.append_assoc, List.cons_append, steps, h1]
    rw [ih n (by simpa using hn)]

/-- No comma comes. -/
def NoComma (r : List Tok) : Prop := ∀ x, r ≠ .sign ',' :: x

theorem dests_complete (l : List Str) (r : List Tok) (hr : NoComma r) : dests (l.flatMap (fun d => [.sign ',', .str d]) ++ r) = (l, r) := by
  induction l with
  | nil =>
    rw [List.flatMap_nil, List.nil_append, dests.eq_def]
    split
    · exact absurd rfl (hr _)
    · rfl
  | cons d l ih => simp only [List.flatMap_cons, List.cons_append, List.nil_append, dests, ih]

theorem goal_complete (g : Goal) (r : List Tok) (hr : NoComma r) : goal (goalW g ++ r) = some (g, r) := by
  cases g with
  | to f l => simp only [goalW, List.cons_append, goal, dests_complete l r hr]
  | tag n => rfl

theorem flat_length {α : Type} (f : α → List Tok) (l : List α) (h : ∀ a ∈ l, f a ≠ []) : l.length ≤ (l.flatMap f).length := by
  induction l with
  | nil => simp
  | cons a l ih =>
    have := List.length_pos_iff.2 (h a (by simp))
    have := ih (fun b hb => h b (by simp [hb]))
    simp only [List.flatMap_cons, List.length_append, List.length_cons]
    omega

theorem trans_complete (t : Trans) (r : List Tok) (hr : NoComma r) : trans (transW t ++ r) = some (t, r) := by
  have h0 : t.rest.length ≤ (transW t ++ r).length := by
    have := flat_length (fun s => .sign ';' :: stepW s) t.rest (by simp)
    simp only [transW, List.length_append]
    omega
  have he : transW t ++ r = stepW t.first ++ (t.rest.flatMap (fun s => .sign ';' :: stepW s) ++ (goalW t.goal ++ r)) := by
    simp only [transW, List.append_assoc]
  have h1 := step_complete t.first _ (flat_joint t.rest _ (end_joint (goal_end t.goal r)))
  have h2 := steps_complete t.rest _ (goal_end t.goal r) _ h0
  have h3 := goal_complete t.goal r hr
  unfold trans
  rw [he] at h2 ⊢
  rw [h1]
  simp only [h2, h3]

/-- How a transition begins. -/
theorem trans_head (t : Trans) : ∃ x r, transW t = x :: r ∧ starts x = true := by
  obtain ⟨f, l, g⟩ := t
  have hg : ∃ x r, goalW g = x :: r ∧ starts x = true := by cases g <;> exact ⟨_, _, rfl, rfl⟩
  have hl : ∃ x r, l.flatMap (fun s => .sign ';' :: stepW s) ++ goalW g = x :: r ∧ starts x = true := by
    cases l with
    | nil => exact hg
    | cons s l => exact ⟨_, _, rfl, rfl⟩
  cases f with
  | inl f l' => exact ⟨_, _, rfl, rfl⟩
  | toks f l' =>
    cases f with
    | some s => exact ⟨_, _, rfl, rfl⟩
    | none =>
      cases l' with
      | nil => simpa [transW, stepW, optW] using hl
      | cons o l' => exact ⟨_, _, rfl, rfl⟩

/-- A keyword comes. -/
def Key : List Tok → Prop
  | .kw _ :: _ => True
  | _ => False

theorem transs_head (l : List Trans) (r : List Tok) (hr : Key r) : ∃ x y, l.flatMap transW ++ r = x :: y ∧ (starts x = true ∨ ∃ k, x = .kw k) := by
  cases l with
  | nil => unfold Key at hr; split at hr <;> first | exact ⟨_, _, rfl, .inr ⟨_, rfl⟩⟩ | cases hr
  | cons t l =>
    obtain ⟨x, y, h1, h2⟩ := trans_head t
    exact ⟨x, _, by rw [List.flatMap_cons, h1]; rfl, .inl h2⟩

theorem transs_complete (l : List Trans) (r : List Tok) (hr : Key r) : ∀ n, l.length ≤ n → transs n (l.flatMap transW ++ r) = some (l, r) := by
  induction l with
  | nil =>
    intro n _
    unfold Key at hr
    split at hr
    · cases n <;> rfl
    · cases hr
  | cons t l ih =>
    intro n hn
    obtain ⟨n, rfl⟩ : ∃ m, n = m + 1 := ⟨n - 1, by simp at hn; omega⟩
    have hc : NoComma (l.flatMap transW ++ r) := by
      obtain ⟨x, y, h1, h2⟩ := transs_head l r hr
      rw [h1]
      intro z hz
      cases hz
      rcases h2 with h2 | ⟨k, h2⟩
      · exact absurd h2 (by decide)
      · cases h2
    have h1 := trans_complete t _ hc
    obtain ⟨x, y, hx, hs⟩ := trans_head t
    rw [List.flatMap_cons, List.append_assoc]
    rw [hx] at h1 ⊢
    rw [List.cons_append] at h1 ⊢
    simp only [transs, hs, if_true, h1, ih n (by simpa using hn)]

theorem attr_complete (a : Option Str) (l : List Trans) (r : List Tok) (hr : Key r) :
    attrOf (attrW a ++ (l.flatMap transW ++ r)) = (a, l.flatMap transW ++ r) := by
  cases a with
  | some n => rfl
  | none =>
    obtain ⟨x, y, h1, h2⟩ := transs_head l r hr
    rw [h1]
    simp only [attrW, List.nil_append]
    rw [attrOf.eq_def]
    split
    · rename_i heq
      cases heq
      rcases h2 with h2 | ⟨k, h2⟩
      · exact absurd h2 (by decide)
      · cases h2
    · rfl

theorem states_key (l : List State) (r : List Tok) (hr : Key r) : Key (l.flatMap stateW ++ r) := by
  cases l with
  | nil => exact hr
  | cons s l => trivial

theorem states_complete (l : List State) (r : List Tok) : ∀ n, l.length ≤ n →
    states n (l.flatMap stateW ++ .kw .endblock :: r) = some (l, .kw .endblock :: r) := by
  induction l with
  | nil => intro n _; cases n <;> rfl
  | cons s l ih =>
    intro n hn
    obtain ⟨n, rfl⟩ : ∃ m, n = m + 1 := ⟨n - 1, by simp at hn; omega⟩
    have hk := states_key l (.kw .endblock :: r) trivial
    have h1 := attr_complete s.attr s.trans _ hk
    have h0 : s.trans.length ≤ (s.trans.flatMap transW ++ (l.flatMap stateW ++ .kw .endblock :: r)).length := by
      have := flat_length transW s.trans (fun t _ h => by obtain ⟨x, y, h1, _⟩ := trans_head t; rw [h] at h1; cases h1)
      rw [List.length_append]; omega
    have h2 := transs_complete s.trans _ hk _ h0
    simp only [List.flatMap_cons, stateW, List.append_assoc, List.cons_append, states, h1, h2, ih n (by simpa using hn)]

theorem insts_complete (l : List (Str × Str)) (r : List Tok) (hr : Key r) :
    insts (l.flatMap (fun p => [.str p.1, .sign ':', .str p.2]) ++ r) = (l, r) := by
  induction l with
  | nil => unfold Key at hr; split at hr <;> first | rfl | cases hr
  | cons p l ih => simp only [List.flatMap_cons, List.cons_append, List.nil_append, insts, ih]

theorem block_complete (b : Block) (r : List Tok) : decl (blockW b ++ r) = some (.block b, r) := by
  obtain ⟨n, is, ss⟩ := b
  have h1 := insts_complete is _ (states_key ss (.kw .endblock :: r) trivial)
  have h0 : ss.length ≤ (is.flatMap (fun p => [Tok.str p.1, Tok.sign ':', Tok.str p.2]) ++ (ss.flatMap stateW ++ Tok.kw .endblock :: r)).length := by
    have := flat_length stateW ss (by simp [stateW])
    simp only [List.length_append]; omega
  have h2 := states_complete ss r _ h0
  simp only [blockW, List.cons_append, List.append_assoc, List.nil_append, decl, block, h1, h2, Option.map_some]

/-- The end of a declaration: a keyword or the end of the file. -/
def Fresh : List Tok → Prop
  | [] => True
  | .kw _ :: _ => True
  | _ => False

/-- No token of an expression comes. -/
def Over (r : List Tok) : Prop := ∀ t x, r = t :: x → toT t = none

theorem fresh_over {r : List Tok} (h : Fresh r) : Over r := by
  rintro t x rfl
  cases t <;> first | rfl | cases h

theorem exprToks_complete (ts : List T) (r : List Tok) (hr : Over r) : exprToks (ts.map exprW ++ r) = (ts, r) := by
  induction ts with
  | nil =>
    cases r with
    | nil => rfl
    | cons t r => simp only [List.map_nil, List.nil_append, exprToks, hr t r rfl]
  | cons t ts ih => simp only [List.map_cons, List.cons_append, exprToks, toT_exprW, ih]

theorem arrowed_complete (ts : List T) (e : Expr) (n : Str) (r : List Tok) (h : Reads 0 ts e) :
    arrowed (ts.map exprW ++ .arrow :: .str n :: r) = some (e, n, r) := by
  have h1 := exprToks_complete ts (.arrow :: .str n :: r) (by rintro t x ⟨⟩; rfl)
  simp only [arrowed, h1, (DfaExpr.parse_reads ts e).2 h]

theorem bare_complete (early : Bool) (n : Str) (r : List Tok) (hr : Fresh r) : result early (.str n :: r) = some (.bare early n, r) := by
  have h1 := exprToks_complete [.str n] r (fresh_over hr)
  simp only [List.map_cons, List.map_nil, exprW, List.cons_append, List.nil_append] at h1
  have h2 : arrowed (.str n :: r) = none := by
    unfold arrowed
    rw [h1]
    unfold Fresh at hr
    split at hr <;> first | rfl | cases hr
  simp only [result, h2, h1]

theorem line_complete {l : Line} {w : List Tok} (h : LineW l w) (r : List Tok) (hr : Fresh r) : line (w ++ r) = some (l, r) := by
  cases h with
  | bare n => exact bare_complete false n r hr
  | early n => exact bare_complete true n r hr
  | result ts e n he => simp only [List.cons_append, List.append_assoc, List.nil_append, line, result, arrowed_complete ts e n r he]
  | earlyresult ts e n he => simp only [List.cons_append, List.append_assoc, List.nil_append, line, result, arrowed_complete ts e n r he]
  | symresult ts e n he => simp only [List.cons_append, List.append_assoc, List.nil_append, line, symresult, arrowed_complete ts e n r he]
  | earlysymresult ts e n he => simp only [List.cons_append, List.append_assoc, List.nil_append, line, symresult, arrowed_complete ts e n r he]
  | symbol ts e n he => simp only [List.cons_append, line, exprToks_complete ts r (fresh_over hr), (DfaExpr.parse_reads ts e).2 he]
  | defresult n => rfl
  | type n => rfl

theorem strs_complete (l : List Str) (r : List Tok) (hr : Fresh r) : strs (l.map .str ++ r) = (l, r) := by
  induction l with
  | nil => unfold Fresh at hr; split at hr <;> first | rfl | cases hr
  | cons s l ih => simp only [List.map_cons, List.cons_append, strs, ih]

theorem pipes_complete (l : List Str) (r : List Tok) (hr : Fresh r) : pipes (l.flatMap (fun s => [.sign '|', .str s]) ++ r) = (l, r) := by
  induction l with
  | nil => unfold Fresh at hr; split at hr <;> first | rfl | cases hr
  | cons s l ih => simp only [List.flatMap_cons, List.cons_append, List.nil_append, pipes, ih]

theorem decl_complete {d : Decl} {w : List Tok} (h : DeclW d w) (r : List Tok) (hr : Fresh r) : decl (w ++ r) = some (d, r) := by
  cases h with
  | block b => exact block_complete b r
  | tokens f l => simp only [List.cons_append, decl, strs_complete l r hr]
  | «prefix» n => rfl
  | «abbrev» n f l => simp only [List.cons_append, decl, pipes_complete l r hr]
  | exit l _ hl =>
    have h1 := line_complete hl r hr
    cases hl <;> simp only [List.cons_append, decl] at h1 ⊢ <;> rw [h1] <;> rfl
  | attr l w hl ha =>
    have h1 := line_complete hl r hr
    have h2 : attrLine (w ++ r) = line (w ++ r) := by
      cases hl <;> first | rfl | cases ha
    simp only [List.cons_append, decl, h2, h1, Option.map_some]
  | defattr n => rfl

theorem decl_head {d : Decl} {w : List Tok} (h : DeclW d w) : ∃ k x, w = .kw k :: x := by
  cases h with
  | exit l _ hl => cases hl <;> exact ⟨_, _, rfl⟩
  | _ => exact ⟨_, _, rfl⟩

theorem file_complete {ds : List Decl} {ts : List Tok} (h : FileW ds ts) : ∀ n, ts.length ≤ n → file n ts = some ds := by
  induction h with
  | nil => intro n _; cases n <;> rfl
  | cons d w ds r hw hf ih =>
    intro n hn
    obtain ⟨k, x, hx⟩ := decl_head hw
    have hr : Fresh r := by
      cases hf with
      | nil => trivial
      | cons d' w' ds' r' hw' _ => obtain ⟨k, x, rfl⟩ := decl_head hw'; trivial
    have h1 := decl_complete hw r hr
    have hl : r.length + 1 ≤ n := by rw [hx] at hn; simp at hn; omega
    obtain ⟨n, rfl⟩ : ∃ m, n = m + 1 := ⟨n - 1, by omega⟩
    have h2 := ih n (by omega)
    rw [hx] at h1 ⊢
    rw [List.cons_append] at h1 ⊢
    simp only [file, h1, h2, Option.map_some]

/-- C115: what is written as the declarations say is read as these declarations, and nothing else is read. -/
theorem parse_file (ts : List Tok) (ds : List Decl) : parse ts = some ds ↔ FileW ds ts :=
  ⟨file_sound _ ts ds, fun h => file_complete h _ (Nat.le_refl _)⟩

/-- C115: so no file has two readings. -/
theorem one_reading (ts : List Tok) (ds ds' : List Decl) (h : FileW ds ts) (h' : FileW ds' ts) : ds = ds' := by
  have := (parse_file ts ds).2 h
  rw [(parse_file ts ds').2 h'] at this
  exact (Option.some.inj this).symm

/-! ## From the text -/

/-- The tokens that the parser gets. -/
def tokens (es : List DfaScan.Ev) : List Tok := es.filterMap fun
  | .tok _ t => some t
  | .leak _ => none

theorem tokens_zip : ∀ (ns : List Nat) (ts : List Tok), ns.length = ts.length → tokens ((ns.zip ts).map (fun p => .tok p.1 p.2)) = ts
  | [], [], _ => rfl
  | n :: ns, t :: ts, h => by
    have := tokens_zip ns ts (by simpa using h)
    simp only [tokens, List.zip_cons_cons, List.map_cons, List.filterMap_cons] at this ⊢
    rw [this]

/-- C115: declarations that are written out with any layout are read back from the text. -/
theorem text_read (ds : List Decl) (ts : List (Nat × Tok)) (s : List Char) (hl : DfaScan.Laid 1 ts s) (hw : FileW ds (ts.map (·.2))) :
    parse (tokens (DfaScan.scan s)) = some ds := by
  obtain ⟨ns, h1, h2⟩ := DfaScan.scan_tokens ts s 1 1 true hl
  have h3 : DfaScan.scan s = (ns.zip (ts.map (·.2))).map (fun p => .tok p.1 p.2) := h2
  rw [h3, tokens_zip _ _ (by simpa using h1)]
  exact (parse_file _ _).2 hw

/-! ## Cases -/

/-- A file with a block, a result line, and an attribute line. -/
def sample : List Decl :=
  [.tokens "A".toList ["B".toList], .abbrev "X".toList "A".toList ["B".toList],
   .block ⟨"b".toList, [("i".toList, "m".toList)],
     [⟨"s".toList, some "T".toList,
       [⟨.toks (some "A".toList) [none], [.inl ("m".toList, "in".toList, "out".toList) [none], .toks none []], .to "p".toList ["q".toList]⟩,
        ⟨.toks none [], [], .tag "Z".toList⟩]⟩,
      ⟨"p".toList, none, []⟩]⟩,
   .exit (.result true (.or (.sym "Z".toList) (.and (.not (.sym "Y".toList)) .wild)) "R".toList), .exit (.bare false "Z".toList),
   .attr (.defresult "N".toList)]

example : parse (tokens (DfaScan.scan ("Tokens A B\nAbbrev X = A|B # both\nBlock b\n i:m\nState s (T)\n A|;<m:in->out>|; -> p, q\n  = Z\n" ++
    "State p\nEndBlock\nEarlyResult Z | !Y & * -> R\nResult Z\nDefAttr N\n").toList)) = some sample := by decide +kernel

example : ∃ ts, FileW sample ts :=
  ⟨tokens (DfaScan.scan ("Tokens A B\nAbbrev X = A|B # both\nBlock b\n i:m\nState s (T)\n A|;<m:in->out>|; -> p, q\n  = Z\n" ++
    "State p\nEndBlock\nEarlyResult Z | !Y & * -> R\nResult Z\nDefAttr N\n").toList), (parse_file _ _).1 (by decide +kernel)⟩

/-- Early results are not for attributes. -/
example : parse [.kw .attr, .kw .earlyresult, .str ['a']] = none := by decide +kernel

end Jbo.DfaParse
