import Verif.MorfLujvoSpec
/-!
# The grammar of lujvo as an automaton

Nothing here is a model of the program: it is how the grammar is compared with the automaton of the
scanner.  The automaton reads letters; it knows the last letter `x` that is not a `y` and the one
before, `p`.
-/

namespace Jbo.Lujvo.Nfa
open Jbo.Lujvo.Spec

/-- What is asked of the next letter. -/
inductive Test
  | cons | med | nomed | ini | iniNB | bt | v | dip | apos | y | r | n | nr
deriving DecidableEq, Repr

/-- The positions in a word. -/
inductive Item
  | tail | sep | k1 | k1n | k1b | cv | cvc | cvcc | cvh | fin | k2 | ccv | ccvc | acc
  | x1 | x2 | xv | xc
  | s0 | s1 | xa2 | xav | scv | sh | svv | sr | sn | h1 | h2 | hv | sf1 | sf2 | scvc | scvcc
  | b0 | b1 | b2 | b3 | d0 | d1 | d2 | d3 | m0 | m1 | m2 | e0 | e1 | e2 | e3
  | g0 | g1 | g2 | g3 | g4 | g5 | g6
deriving DecidableEq, Repr

/-- The steps. -/
def rules : Item → List (Test × List Item)
  | .tail => [(.cons, [.k1])]
  | .sep => [(.nomed, [.k1]), (.med, [.k1b])]
  | .k1 => [(.v, [.cv]), (.ini, [.k2])]
  | .k1n => [(.v, [.cv]), (.iniNB, [.k2])]
  | .k1b => [(.bt, [.k2])]
  | .cv => [(.cons, [.cvc]), (.dip, [.fin]), (.apos, [.cvh])]
  | .cvc => [(.med, [.cvcc, .k1n]), (.y, [.sep])]
  | .cvcc => [(.v, [.acc]), (.y, [.tail])]
  | .cvh => [(.v, [.fin])]
  | .fin => [(.cons, [.k1])]
  | .k2 => [(.v, [.ccv])]
  | .ccv => [(.cons, [.k1, .ccvc])]
  | .ccvc => [(.v, [.acc]), (.y, [.tail])]
  | .acc => []
  | .x1 => [(.ini, [.x2])]
  | .x2 => [(.v, [.xv])]
  | .xv => [(.cons, [.k1, .xc])]
  | .xc => [(.y, [.tail])]
  | .s0 => [(.cons, [.s1])]
  | .s1 => [(.v, [.scv]), (.ini, [.xa2])]
  | .xa2 => [(.v, [.xav])]
  | .xav => [(.cons, [.k1, .xc])]
  | .scv => [(.cons, [.scvc]), (.dip, [.svv]), (.apos, [.sh])]
  | .sh => [(.v, [.svv])]
  | .svv => [(.r, [.sr]), (.n, [.sn]), (.cons, [.sf1])]
  | .sr => [(.med, [.h1])]
  | .sn => [(.nr, [.h1])]
  | .h1 => [(.v, [.cv]), (.ini, [.h2])]
  | .h2 => [(.v, [.hv])]
  | .hv => [(.cons, [.k1, .ccvc])]
  | .sf1 => [(.ini, [.sf2])]
  | .sf2 => [(.v, [.acc])]
  | .scvc => [(.med, [.scvcc]), (.y, [.sep])]
  | .scvcc => [(.y, [.tail])]
  | .b0 => [(.cons, [.b1])]
  | .b1 => [(.v, [.b2])]
  | .b2 => [(.cons, [.b3])]
  | .b3 => [(.med, [.k1n])]
  | .d0 => [(.cons, [.d1])]
  | .d1 => [(.v, [.d2])]
  | .d2 => [(.cons, [.d3])]
  | .d3 => [(.y, [.tail])]
  | .m0 => [(.cons, [.m1])]
  | .m1 => [(.v, [.m2])]
  | .m2 => [(.cons, [.x1])]
  | .e0 => [(.cons, [.e1])]
  | .e1 => [(.v, [.e2])]
  | .e2 => [(.cons, [.e3])]
  | .e3 => [(.y, [.x1])]
  | .g0 => [(.cons, [.g1])]
  | .g1 => [(.v, [.g2]), (.ini, [.g5])]
  | .g2 => [(.cons, [.g3])]
  | .g3 => [(.med, [.g4])]
  | .g4 => [(.v, [.acc])]
  | .g5 => [(.v, [.g6])]
  | .g6 => [(.cons, [.g4])]

/-- Where a word may end. -/
def final : Item → Bool
  | .fin => true
  | .ccv => true
  | .acc => true
  | .xv => true
  | _ => false

/-- The tests, on letters. -/
def Test.ok : Test → Char → Char → Char → Prop
  | .cons, _, _, c => C c
  | .med, _, x, c => C c ∧ Medial x c
  | .nomed, _, x, c => C c ∧ ¬ Medial x c
  | .ini, _, x, c => Initial x c
  | .iniNB, p, x, c => Initial x c ∧ [p, x, c] ∉ badTriples
  | .bt, p, x, c => [p, x, c] ∈ badTriples
  | .v, _, _, c => V c
  | .dip, _, x, c => (x, c) ∈ diphthongs
  | .apos, _, _, c => c = '\''
  | .y, _, _, c => c = 'y'
  | .r, _, _, c => c = 'r'
  | .n, _, _, c => c = 'n'
  | .nr, _, _, c => c = 'r'

/-- The words that the automaton accepts from a position on. -/
def Acc : Item → Char → Char → List Char → Prop
  | q, _, _, [] => final q = true
  | q, p, x, c :: t => ∃ r ∈ rules q, r.1.ok p x c ∧ ∃ q' ∈ r.2, if r.1 = .y then Acc q' p x t else Acc q' x c t

variable {p x a b c d e : Char} {t w u v : List Char}

theorem acc_tail : Acc .tail p x (c :: t) ↔ C c ∧ Acc .k1 x c t := by simp [Acc, rules, Test.ok]
theorem acc_sep : Acc .sep p x (c :: t) ↔ (C c ∧ ¬ Medial x c) ∧ Acc .k1 x c t ∨ (C c ∧ Medial x c) ∧ Acc .k1b x c t := by
  simp [Acc, rules, Test.ok]
theorem acc_k1 : Acc .k1 p x (c :: t) ↔ V c ∧ Acc .cv x c t ∨ Initial x c ∧ Acc .k2 x c t := by
  simp [Acc, rules, Test.ok]
theorem acc_k1n : Acc .k1n p x (c :: t) ↔
    V c ∧ Acc .cv x c t ∨ (Initial x c ∧ [p, x, c] ∉ badTriples) ∧ Acc .k2 x c t := by
  simp [Acc, rules, Test.ok]
theorem acc_k1b : Acc .k1b p x (c :: t) ↔ [p, x, c] ∈ badTriples ∧ Acc .k2 x c t := by
  simp [Acc, rules, Test.ok]
theorem acc_cv : Acc .cv p x (c :: t) ↔
    C c ∧ Acc .cvc x c t ∨ (x, c) ∈ diphthongs ∧ Acc .fin x c t ∨ c = '\'' ∧ Acc .cvh x c t := by
  simp [Acc, rules, Test.ok]
theorem acc_cvc : Acc .cvc p x (c :: t) ↔
    (C c ∧ Medial x c) ∧ (Acc .cvcc x c t ∨ Acc .k1n x c t) ∨ c = 'y' ∧ Acc .sep p x t := by
  simp [Acc, rules, Test.ok]
theorem acc_cvcc : Acc .cvcc p x (c :: t) ↔ V c ∧ Acc .acc x c t ∨ c = 'y' ∧ Acc .tail p x t := by
  simp [Acc, rules, Test.ok]
theorem acc_cvh : Acc .cvh p x (c :: t) ↔ V c ∧ Acc .fin x c t := by simp [Acc, rules, Test.ok]
theorem acc_fin : Acc .fin p x (c :: t) ↔ C c ∧ Acc .k1 x c t := by simp [Acc, rules, Test.ok]
theorem acc_k2 : Acc .k2 p x (c :: t) ↔ V c ∧ Acc .ccv x c t := by simp [Acc, rules, Test.ok]
theorem acc_ccv : Acc .ccv p x (c :: t) ↔ C c ∧ (Acc .k1 x c t ∨ Acc .ccvc x c t) := by
  simp [Acc, rules, Test.ok]
theorem acc_ccvc : Acc .ccvc p x (c :: t) ↔ V c ∧ Acc .acc x c t ∨ c = 'y' ∧ Acc .tail p x t := by
  simp [Acc, rules, Test.ok]
theorem acc_acc : Acc .acc p x t ↔ t = [] := by cases t <;> simp [Acc, rules, final]
theorem acc_x1 : Acc .x1 p x (c :: t) ↔ Initial x c ∧ Acc .x2 x c t := by simp [Acc, rules, Test.ok]
theorem acc_x2 : Acc .x2 p x (c :: t) ↔ V c ∧ Acc .xv x c t := by simp [Acc, rules, Test.ok]
theorem acc_xv : Acc .xv p x (c :: t) ↔ C c ∧ (Acc .k1 x c t ∨ Acc .xc x c t) := by simp [Acc, rules, Test.ok]
theorem acc_xc : Acc .xc p x (c :: t) ↔ c = 'y' ∧ Acc .tail p x t := by simp [Acc, rules, Test.ok]
theorem acc_s0 : Acc .s0 p x (c :: t) ↔ C c ∧ Acc .s1 x c t := by simp [Acc, rules, Test.ok]
theorem acc_s1 : Acc .s1 p x (c :: t) ↔ V c ∧ Acc .scv x c t ∨ Initial x c ∧ Acc .xa2 x c t := by
  simp [Acc, rules, Test.ok]
theorem acc_xa2 : Acc .xa2 p x (c :: t) ↔ V c ∧ Acc .xav x c t := by simp [Acc, rules, Test.ok]
theorem acc_xav : Acc .xav p x (c :: t) ↔ C c ∧ (Acc .k1 x c t ∨ Acc .xc x c t) := by simp [Acc, rules, Test.ok]
theorem acc_scv : Acc .scv p x (c :: t) ↔
    C c ∧ Acc .scvc x c t ∨ (x, c) ∈ diphthongs ∧ Acc .svv x c t ∨ c = '\'' ∧ Acc .sh x c t := by
  simp [Acc, rules, Test.ok]
theorem acc_sh : Acc .sh p x (c :: t) ↔ V c ∧ Acc .svv x c t := by simp [Acc, rules, Test.ok]
theorem acc_svv : Acc .svv p x (c :: t) ↔ c = 'r' ∧ Acc .sr x c t ∨ c = 'n' ∧ Acc .sn x c t ∨ C c ∧ Acc .sf1 x c t := by
  simp [Acc, rules, Test.ok]
theorem acc_sr : Acc .sr p x (c :: t) ↔ (C c ∧ Medial x c) ∧ Acc .h1 x c t := by simp [Acc, rules, Test.ok]
theorem acc_sn : Acc .sn p x (c :: t) ↔ c = 'r' ∧ Acc .h1 x c t := by simp [Acc, rules, Test.ok]
theorem acc_h1 : Acc .h1 p x (c :: t) ↔ V c ∧ Acc .cv x c t ∨ Initial x c ∧ Acc .h2 x c t := by
  simp [Acc, rules, Test.ok]
theorem acc_h2 : Acc .h2 p x (c :: t) ↔ V c ∧ Acc .hv x c t := by simp [Acc, rules, Test.ok]
theorem acc_hv : Acc .hv p x (c :: t) ↔ C c ∧ (Acc .k1 x c t ∨ Acc .ccvc x c t) := by simp [Acc, rules, Test.ok]
theorem acc_sf1 : Acc .sf1 p x (c :: t) ↔ Initial x c ∧ Acc .sf2 x c t := by simp [Acc, rules, Test.ok]
theorem acc_sf2 : Acc .sf2 p x (c :: t) ↔ V c ∧ Acc .acc x c t := by simp [Acc, rules, Test.ok]
theorem acc_scvc : Acc .scvc p x (c :: t) ↔
    (C c ∧ Medial x c) ∧ Acc .scvcc x c t ∨ c = 'y' ∧ Acc .sep p x t := by
  simp [Acc, rules, Test.ok]
theorem acc_scvcc : Acc .scvcc p x (c :: t) ↔ c = 'y' ∧ Acc .tail p x t := by simp [Acc, rules, Test.ok]
theorem acc_b0 : Acc .b0 p x (c :: t) ↔ C c ∧ Acc .b1 x c t := by simp [Acc, rules, Test.ok]
theorem acc_b1 : Acc .b1 p x (c :: t) ↔ V c ∧ Acc .b2 x c t := by simp [Acc, rules, Test.ok]
theorem acc_b2 : Acc .b2 p x (c :: t) ↔ C c ∧ Acc .b3 x c t := by simp [Acc, rules, Test.ok]
theorem acc_b3 : Acc .b3 p x (c :: t) ↔ (C c ∧ Medial x c) ∧ Acc .k1n x c t := by simp [Acc, rules, Test.ok]
theorem acc_d0 : Acc .d0 p x (c :: t) ↔ C c ∧ Acc .d1 x c t := by simp [Acc, rules, Test.ok]
theorem acc_d1 : Acc .d1 p x (c :: t) ↔ V c ∧ Acc .d2 x c t := by simp [Acc, rules, Test.ok]
theorem acc_d2 : Acc .d2 p x (c :: t) ↔ C c ∧ Acc .d3 x c t := by simp [Acc, rules, Test.ok]
theorem acc_d3 : Acc .d3 p x (c :: t) ↔ c = 'y' ∧ Acc .tail p x t := by simp [Acc, rules, Test.ok]
theorem acc_m0 : Acc .m0 p x (c :: t) ↔ C c ∧ Acc .m1 x c t := by simp [Acc, rules, Test.ok]
theorem acc_m1 : Acc .m1 p x (c :: t) ↔ V c ∧ Acc .m2 x c t := by simp [Acc, rules, Test.ok]
theorem acc_m2 : Acc .m2 p x (c :: t) ↔ C c ∧ Acc .x1 x c t := by simp [Acc, rules, Test.ok]
theorem acc_e0 : Acc .e0 p x (c :: t) ↔ C c ∧ Acc .e1 x c t := by simp [Acc, rules, Test.ok]
theorem acc_e1 : Acc .e1 p x (c :: t) ↔ V c ∧ Acc .e2 x c t := by simp [Acc, rules, Test.ok]
theorem acc_e2 : Acc .e2 p x (c :: t) ↔ C c ∧ Acc .e3 x c t := by simp [Acc, rules, Test.ok]
theorem acc_e3 : Acc .e3 p x (c :: t) ↔ c = 'y' ∧ Acc .x1 p x t := by simp [Acc, rules, Test.ok]
theorem acc_g0 : Acc .g0 p x (c :: t) ↔ C c ∧ Acc .g1 x c t := by simp [Acc, rules, Test.ok]
theorem acc_g1 : Acc .g1 p x (c :: t) ↔ V c ∧ Acc .g2 x c t ∨ Initial x c ∧ Acc .g5 x c t := by
  simp [Acc, rules, Test.ok]
theorem acc_g2 : Acc .g2 p x (c :: t) ↔ C c ∧ Acc .g3 x c t := by simp [Acc, rules, Test.ok]
theorem acc_g3 : Acc .g3 p x (c :: t) ↔ (C c ∧ Medial x c) ∧ Acc .g4 x c t := by simp [Acc, rules, Test.ok]
theorem acc_g4 : Acc .g4 p x (c :: t) ↔ V c ∧ Acc .acc x c t := by simp [Acc, rules, Test.ok]
theorem acc_g5 : Acc .g5 p x (c :: t) ↔ V c ∧ Acc .g6 x c t := by simp [Acc, rules, Test.ok]
theorem acc_g6 : Acc .g6 p x (c :: t) ↔ C c ∧ Acc .g4 x c t := by simp [Acc, rules, Test.ok]

/-! ## Letters -/

theorem cNotV (h : C c) : ¬ V c := by revert c; unfold C V; decide
theorem ini_C (h : Initial a b) : C a ∧ C b := by
  have : ∀ z ∈ initialPairs, C z.1 ∧ C z.2 := by decide +kernel
  exact this _ h
theorem ini_medial (h : Initial a b) : Medial a b := by
  have : ∀ z ∈ initialPairs, Medial z.1 z.2 := by decide +kernel
  exact this _ h
theorem bad_C (h : [a, b, c] ∈ badTriples) : C a ∧ C b ∧ C c ∧ Initial b c ∧ Medial a b := by
  revert h; unfold badTriples
  simp only [List.mem_cons, List.not_mem_nil, or_false, List.cons.injEq, and_true]
  rintro (⟨rfl, rfl, rfl⟩ | ⟨rfl, rfl, rfl⟩ | ⟨rfl, rfl, rfl⟩ | ⟨rfl, rfl, rfl⟩) <;> decide +kernel
theorem dip_V (h : (a, b) ∈ diphthongs) : V a ∧ V b := by
  have : ∀ z ∈ diphthongs, V z.1 ∧ V z.2 := by decide +kernel
  exact this _ h
theorem notV_apos : ¬ V '\'' := by decide
theorem notV_y : ¬ V 'y' := by decide
theorem notC_apos : ¬ C '\'' := by decide
theorem notC_y : ¬ C 'y' := by decide

theorem flows_cons : Flows (a :: b :: t) ↔ (V a → V b → (a, b) ∈ diphthongs) ∧ Flows (b :: t) := by
  constructor
  · intro h
    exact ⟨h [] t a b rfl, fun u v c d he => h (a :: u) v c d (by rw [he]; rfl)⟩
  · rintro ⟨h1, h2⟩ u v c d he
    cases u with
    | nil => simp only [List.nil_append, List.cons.injEq] at he; obtain ⟨rfl, rfl, rfl⟩ := he; exact h1
    | cons z u =>
      simp only [List.cons_append, List.cons.injEq] at he
      exact h2 u v c d he.2
theorem flows_one : Flows [a] := by
  intro u v c d he
  have := congrArg List.length he
  simp only [List.length_append, List.length_cons, List.length_nil] at this
  omega
theorem flows_nil : Flows [] := by
  intro u v c d he
  have := congrArg List.length he
  simp only [List.length_append, List.length_cons, List.length_nil] at this
  omega
theorem flows_notV (h : ¬ V a) : Flows (a :: t) ↔ Flows t := by
  cases t with
  | nil => exact ⟨fun _ => flows_nil, fun _ => flows_one⟩
  | cons b t => rw [flows_cons]; exact ⟨fun h => h.2, fun h' => ⟨fun hv => absurd hv h, h'⟩⟩
theorem flows_suffix (h : Flows (u ++ t)) : Flows t :=
  fun u' v a b he => h (u ++ u') v a b (by rw [he, List.append_assoc])
theorem flows_V_notV (hb : ¬ V b) : Flows (a :: b :: t) ↔ Flows t := by
  rw [flows_cons, flows_notV hb]; exact ⟨fun h => h.2, fun h => ⟨fun _ hv => absurd hv hb, h⟩⟩

/-! ## Components -/

theorem rafsi_cvccv : Rafsi .cvccv w ↔ ∃ a b c d e, w = [a, b, c, d, e] ∧ C a ∧ V b ∧ C c ∧ C d ∧ V e ∧ Medial c d := by
  constructor
  · rintro ⟨h1, h2⟩
    unfold HasShape at h1
    split at h1
    all_goals first | exact ⟨_, _, _, _, _, rfl, h1.1, h1.2.1, h1.2.2.1, h1.2.2.2.1, h1.2.2.2.2, h2⟩ | simp_all
  · rintro ⟨a, b, c, d, e, rfl, h0, h1, h2, h3, h4, hc⟩
    exact ⟨⟨h0, h1, h2, h3, h4⟩, hc⟩
theorem rafsi_cvcc : Rafsi .cvcc w ↔ ∃ a b c d, w = [a, b, c, d] ∧ C a ∧ V b ∧ C c ∧ C d ∧ Medial c d := by
  constructor
  · rintro ⟨h1, h2⟩
    unfold HasShape at h1
    split at h1
    all_goals first | exact ⟨_, _, _, _, rfl, h1.1, h1.2.1, h1.2.2.1, h1.2.2.2, h2⟩ | simp_all
  · rintro ⟨a, b, c, d, rfl, h0, h1, h2, h3, hc⟩
    exact ⟨⟨h0, h1, h2, h3⟩, hc⟩
theorem rafsi_ccvcv : Rafsi .ccvcv w ↔ ∃ a b c d e, w = [a, b, c, d, e] ∧ C a ∧ C b ∧ V c ∧ C d ∧ V e ∧ Initial a b := by
  constructor
  · rintro ⟨h1, h2⟩
    unfold HasShape at h1
    split at h1
    all_goals first | exact ⟨_, _, _, _, _, rfl, h1.1, h1.2.1, h1.2.2.1, h1.2.2.2.1, h1.2.2.2.2, h2⟩ | simp_all
  · rintro ⟨a, b, c, d, e, rfl, h0, h1, h2, h3, h4, hc⟩
    exact ⟨⟨h0, h1, h2, h3, h4⟩, hc⟩
theorem rafsi_ccvc : Rafsi .ccvc w ↔ ∃ a b c d, w = [a, b, c, d] ∧ C a ∧ C b ∧ V c ∧ C d ∧ Initial a b := by
  constructor
  · rintro ⟨h1, h2⟩
    unfold HasShape at h1
    split at h1
    all_goals first | exact ⟨_, _, _, _, rfl, h1.1, h1.2.1, h1.2.2.1, h1.2.2.2, h2⟩ | simp_all
  · rintro ⟨a, b, c, d, rfl, h0, h1, h2, h3, hc⟩
    exact ⟨⟨h0, h1, h2, h3⟩, hc⟩
theorem rafsi_ccv : Rafsi .ccv w ↔ ∃ a b c, w = [a, b, c] ∧ C a ∧ C b ∧ V c ∧ Initial a b := by
  constructor
  · rintro ⟨h1, h2⟩
    unfold HasShape at h1
    split at h1
    all_goals first | exact ⟨_, _, _, rfl, h1.1, h1.2.1, h1.2.2, h2⟩ | simp_all
  · rintro ⟨a, b, c, rfl, h0, h1, h2, hc⟩
    exact ⟨⟨h0, h1, h2⟩, hc⟩
theorem rafsi_cvv : Rafsi .cvv w ↔ ∃ a b c, w = [a, b, c] ∧ C a ∧ V b ∧ V c := by
  constructor
  · rintro ⟨h1, h2⟩
    unfold HasShape at h1
    split at h1
    all_goals first | exact ⟨_, _, _, rfl, h1.1, h1.2.1, h1.2.2⟩ | simp_all
  · rintro ⟨a, b, c, rfl, h0, h1, h2⟩
    exact ⟨⟨h0, h1, h2⟩, trivial⟩
theorem rafsi_cvhv : Rafsi .cvhv w ↔ ∃ a b c, w = [a, b, '\'', c] ∧ C a ∧ V b ∧ V c := by
  constructor
  · rintro ⟨h1, h2⟩
    unfold HasShape at h1
    split at h1
    all_goals first | exact ⟨_, _, _, by rw [h1.2.2.1], h1.1, h1.2.1, h1.2.2.2⟩ | simp_all
  · rintro ⟨a, b, c, rfl, h0, h1, h2⟩
    exact ⟨⟨h0, h1, rfl, h2⟩, trivial⟩

end Jbo.Lujvo.Nfa
