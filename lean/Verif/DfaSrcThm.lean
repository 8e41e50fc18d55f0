import Verif.DfaSrc
/-!
# The actions that store something keep the order of the file
-/

namespace Jbo.DfaSrc
open Jbo.Dfasyn Jbo.DfaParse

/-- The words of the `Tokens` lines in the order of the file. -/
def tokenWords (ds : List Decl) : List Str := ds.flatMap fun
  | .tokens f l => f :: l
  | _ => []

/-- The blocks in the order of the file. -/
def blockDecls (ds : List Decl) : List DfaParse.Block := ds.filterMap fun
  | .block b => some b
  | _ => none

/-- The abbreviations in the order of the file. -/
def abbrevDecls (ds : List Decl) : List (Str × List Str) := ds.filterMap fun
  | .abbrev n f l => some (n, f :: l)
  | _ => none

/-- The lines about exit values, or about attributes, in the order of the file. -/
def lines (attr : Bool) (ds : List Decl) : List Line := ds.filterMap fun
  | .exit l => if attr then none else some l
  | .attr l => if attr then some l else none
  | _ => none

/-- The result of a line: the text, the condition and whether it is early. -/
def resultOf : Line → Option Result
  | .bare early n => some ⟨n, .sym n, early⟩
  | .result early e n => some ⟨n, e, early⟩
  | .symresult early e n => some ⟨n, e, early⟩
  | _ => none

/-- The symbol that a line defines. -/
def symbolOf : Line → Option (Name × Expr)
  | .symresult _ e n => some (n, e)
  | .symbol n e => some (n, e)
  | _ => none

theorem define_all (ls : List Line) : ∀ x : Evaluator,
    ls.foldl define x = ⟨(ls.filterMap symbolOf).reverse ++ x.defs, x.results ++ ls.filterMap resultOf⟩ := by
  induction ls with
  | nil => intro x; simp
  | cons l ls ih =>
    intro x
    rw [List.foldl_cons, ih]
    cases l <;> simp [define, symbolOf, resultOf, List.filterMap_cons]

/-- The state after some declarations. -/
def Stored (s0 : Source) (ds : List Decl) (s : Source) : Prop :=
  s.tokens = s0.tokens ++ (tokenWords ds).map ident ∧
  s.abbrevs = s0.abbrevs ++ (abbrevDecls ds).map (fun d => (ident d.1, d.2.map ident)) ∧
  s.blocks = s0.blocks ++ (blockDecls ds).map blockOf ∧
  s.exit = (lines false ds).foldl define s0.exit ∧
  s.attr = (lines true ds).foldl define s0.attr

theorem stored (ds : List Decl) : ∀ s0 : Source, Stored s0 ds (ds.foldl add s0) := by
  induction ds with
  | nil => intro s0; simp [Stored, tokenWords, abbrevDecls, blockDecls, lines]
  | cons d ds ih =>
    intro s0
    have h := ih (add s0 d)
    rw [List.foldl_cons]
    unfold Stored at h ⊢
    obtain ⟨h1, h2, h3, h4, h5⟩ := h
    rw [h1, h2, h3, h4, h5]
    cases d <;> simp [add, tokenWords, abbrevDecls, blockDecls, lines]

/-- C116: tokens, abbreviations, blocks and results are stored in the order of the file, so that the number of a token
is its place among the words of the `Tokens` lines; the symbols are stored last first, so that a later definition
hides an earlier one; lines about attributes do not touch the exit values, and the other way round. -/
theorem source_order (ds : List Decl) :
    (source ds).tokens = (tokenWords ds).map ident ∧
    (source ds).abbrevs = (abbrevDecls ds).map (fun d => (ident d.1, d.2.map ident)) ∧
    (source ds).blocks = (blockDecls ds).map blockOf ∧
    (source ds).exit.results = (lines false ds).filterMap resultOf ∧
    (source ds).exit.defs = ((lines false ds).filterMap symbolOf).reverse ∧
    (source ds).attr.results = (lines true ds).filterMap resultOf ∧
    (source ds).attr.defs = ((lines true ds).filterMap symbolOf).reverse := by
  obtain ⟨h1, h2, h3, h4, h5⟩ := stored ds ⟨[], [], [], ⟨[], []⟩, ⟨[], []⟩⟩
  rw [define_all] at h4 h5
  unfold source
  rw [h1, h2, h3, h4, h5]
  simp

/-- Two `Tokens` lines, a symbol that is defined twice and an attribute. -/
example : ofText c!"Tokens A B\nTokens C\nSymbol s = t\nSymResult t -> s\nAttr Result u\nEarlyResult v\n" =
    some ⟨[n!"A", n!"B", n!"C"], [], [],
      ⟨[(c!"s", .sym c!"t"), (c!"s", .sym c!"t")], [⟨c!"s", .sym c!"t", false⟩, ⟨c!"v", .sym c!"v", true⟩]⟩,
      ⟨[], [⟨c!"u", .sym c!"u", false⟩]⟩⟩ := by decide +kernel

/-- Different identifiers have different numbers (no byte of an identifier is 0). -/
theorem ident_inj {s t : Str} (hs : ∀ c ∈ s, 0 < c.toNat ∧ c.toNat < 256) (ht : ∀ c ∈ t, 0 < c.toNat ∧ c.toNat < 256)
    (h : ident s = ident t) : s = t := by
  have key : ∀ a b : List Char, (∀ c ∈ a, 0 < c.toNat ∧ c.toNat < 256) → (∀ c ∈ b, 0 < c.toNat ∧ c.toNat < 256) →
      ident a.reverse = ident b.reverse → a = b := by
    have hc : ∀ (c : Char) (a : List Char), ident (c :: a).reverse = ident a.reverse * 256 + c.toNat := by
      intro c a
      unfold ident
      rw [List.reverse_cons, List.foldl_append]
      rfl
    intro a
    induction a with
    | nil =>
      intro b _ hb h
      cases b with
      | nil => rfl
      | cons d b =>
        rw [hc] at h
        have := (hb d List.mem_cons_self).1
        have h' : (0 : Nat) = ident b.reverse * 256 + d.toNat := h
        omega
    | cons c a ih =>
      intro b ha hb h
      cases b with
      | nil =>
        rw [hc] at h
        have := (ha c List.mem_cons_self).1
        have h' : @Eq Nat (ident a.reverse * 256 + c.toNat) 0 := h
        omega
      | cons d b =>
        rw [hc, hc] at h
        have h1 := (ha c List.mem_cons_self).2
        have h2 := (hb d List.mem_cons_self).2
        have h' : @Eq Nat (ident a.reverse * 256 + c.toNat) (ident b.reverse * 256 + d.toNat) := h
        have e1 : c.toNat = d.toNat := by omega
        have e2 : @Eq Nat (ident a.reverse) (ident b.reverse) := by omega
        rw [Char.toNat_inj.1 e1, ih b (fun x hx => ha x (List.mem_cons_of_mem _ hx))
          (fun x hx => hb x (List.mem_cons_of_mem _ hx)) e2]
  have := key s.reverse t.reverse (by simpa using hs) (by simpa using ht) (by simpa using h)
  simpa using this

example : ident c!"PA" ≠ ident c!"PU" := fun h => absurd (ident_inj (by decide) (by decide) h) (by decide)

end Jbo.DfaSrc
