import Verif.Spec.Arith
import Verif.Proofs.Infix

namespace Calliope
namespace Arith

open Infix

variable {α : Type}

/-! ### The conventional reading is unique -/

/-- States of a reader. -/
inductive Mode (α : Type) where
  | atom | unary | tail (φ : Formula Op α) | prod | mulLoop (φ : Formula Op α) | sum
  | addLoop (φ : Formula Op α)

/-- What `rest` does not begin with. -/
def NotOp (p : Op → Bool) (rest : List (Tok Op α)) : Prop := ∀ o ts, rest = .op o :: ts → p o = false

/-- A deterministic reader: from a text, the formula of its longest readable beginning and the rest. -/
inductive Rd : Mode α → List (Tok Op α) → Formula Op α → List (Tok Op α) → Prop
  | leaf (a : α) (r : List (Tok Op α)) : Rd .atom (.atom a :: r) (.leaf a) r
  | paren {ts r : List (Tok Op α)} {φ : Formula Op α} :
      Rd .sum ts φ (.rpar :: r) → Rd .atom (.lpar :: ts) φ r
  | sign {o : Op} {ts r : List (Tok Op α)} {φ : Formula Op α} :
      Rd .unary ts φ r → Rd .unary (.op o :: ts) (.pre o φ) r
  | base {ts r s : List (Tok Op α)} {φ ψ : Formula Op α} :
      Rd .atom ts φ r → Rd (.tail φ) r ψ s → Rd .unary ts ψ s
  | pow {ts r : List (Tok Op α)} {φ ψ : Formula Op α} :
      Rd .unary ts ψ r → Rd (.tail φ) (.op .pow :: ts) (.bin .pow φ ψ) r
  | noPow {r : List (Tok Op α)} {φ : Formula Op α} : NotOp isPow r → Rd (.tail φ) r φ r
  | prod {ts r s : List (Tok Op α)} {φ ψ : Formula Op α} :
      Rd .unary ts φ r → Rd (.mulLoop φ) r ψ s → Rd .prod ts ψ s
  | mul {o : Op} {ts r s : List (Tok Op α)} {φ ψ χ : Formula Op α} :
      isMul o = true → Rd .unary ts ψ r → Rd (.mulLoop (.bin o φ ψ)) r χ s →
      Rd (.mulLoop φ) (.op o :: ts) χ s
  | noMul {r : List (Tok Op α)} {φ : Formula Op α} : NotOp isMul r → Rd (.mulLoop φ) r φ r
  | sum {ts r s : List (Tok Op α)} {φ ψ : Formula Op α} :
      Rd .prod ts φ r → Rd (.addLoop φ) r ψ s → Rd .sum ts ψ s
  | add {o : Op} {ts r s : List (Tok Op α)} {φ ψ χ : Formula Op α} :
      isAdd o = true → Rd .prod ts ψ r → Rd (.addLoop (.bin o φ ψ)) r χ s →
      Rd (.addLoop φ) (.op o :: ts) χ s
  | noAdd {r : List (Tok Op α)} {φ : Formula Op α} : NotOp isAdd r → Rd (.addLoop φ) r φ r

theorem Rd.det {m : Mode α} {ts r : List (Tok Op α)} {φ : Formula Op α} (h : Rd m ts φ r) :
    ∀ {ψ s}, Rd m ts ψ s → φ = ψ ∧ r = s := by
  induction h with
  | leaf a r => intro ψ s h'; cases h'; exact ⟨rfl, rfl⟩
  | paren _ ih =>
    intro ψ s h'
    cases h' with
    | paren h' =>
      obtain ⟨h1, h2⟩ := ih h'
      cases h2
      exact ⟨h1, rfl⟩
  | sign _ ih =>
    intro ψ s h'
    cases h' with
    | sign h' =>
      obtain ⟨rfl, rfl⟩ := ih h'
      exact ⟨rfl, rfl⟩
    | base h' _ => cases h'
  | base h1 h2 ih1 ih2 =>
    intro ψ s h'
    cases h' with
    | sign h' => cases h1
    | base g1 g2 =>
      obtain ⟨rfl, rfl⟩ := ih1 g1
      exact ih2 g2
  | pow _ ih =>
    intro ψ s h'
    cases h' with
    | pow h' =>
      obtain ⟨rfl, rfl⟩ := ih h'
      exact ⟨rfl, rfl⟩
    | noPow hn => exact absurd (hn .pow _ rfl) (by decide)
  | noPow hn =>
    intro ψ s h'
    cases h' with
    | pow h' => exact absurd (hn .pow _ rfl) (by decide)
    | noPow => exact ⟨rfl, rfl⟩
  | prod _ _ ih1 ih2 =>
    intro ψ s h'
    cases h' with
    | prod g1 g2 =>
      obtain ⟨rfl, rfl⟩ := ih1 g1
      exact ih2 g2
  | mul ho _ _ ih1 ih2 =>
    intro ψ s h'
    cases h' with
    | mul _ g1 g2 =>
      obtain ⟨rfl, rfl⟩ := ih1 g1
      exact ih2 g2
    | noMul hn => exact absurd (hn _ _ rfl) (by simp [ho])
  | noMul hn =>
    intro ψ s h'
    cases h' with
    | mul ho _ _ => exact absurd (hn _ _ rfl) (by simp [ho])
    | noMul => exact ⟨rfl, rfl⟩
  | sum _ _ ih1 ih2 =>
    intro ψ s h'
    cases h' with
    | sum g1 g2 =>
      obtain ⟨rfl, rfl⟩ := ih1 g1
      exact ih2 g2
  | add ho _ _ ih1 ih2 =>
    intro ψ s h'
    cases h' with
    | add _ g1 g2 =>
      obtain ⟨rfl, rfl⟩ := ih1 g1
      exact ih2 g2
    | noAdd hn => exact absurd (hn _ _ rfl) (by simp [ho])
  | noAdd hn =>
    intro ψ s h'
    cases h' with
    | add ho _ _ => exact absurd (hn _ _ rfl) (by simp [ho])
    | noAdd => exact ⟨rfl, rfl⟩

theorem notOp_op {p : Op → Bool} {o : Op} {ts : List (Tok Op α)} (h : p o = false) :
    NotOp p (.op o :: ts) := by
  intro o' ts' e
  cases e
  exact h

theorem isAdd_iff {o : Op} : isAdd o = true ↔ o = .plus ∨ o = .minus := by cases o <;> simp [isAdd]
theorem isMul_iff {o : Op} : isMul o = true ↔ o = .times ∨ o = .div := by cases o <;> simp [isMul]

/-- What the reader does with a conventional text, before some rest. -/
def Reads : Cat → Formula Op α → List (Tok Op α) → Prop
  | .atom, φ, ts => ∀ rest, Rd .atom (ts ++ rest) φ rest
  | .unary, φ, ts => ∀ rest, NotOp isPow rest → Rd .unary (ts ++ rest) φ rest
  | .prod, φ, ts => ∀ rest χ r, NotOp isPow rest → Rd (.mulLoop φ) rest χ r → Rd .prod (ts ++ rest) χ r
  | .sum, φ, ts => ∀ rest χ r, NotOp isPow rest → NotOp isMul rest → Rd (.addLoop φ) rest χ r →
      Rd .sum (ts ++ rest) χ r

theorem reads_of_conv {c : Cat} {φ : Formula Op α} {ts : List (Tok Op α)} (h : Conv c φ ts) :
    Reads c φ ts := by
  induction h with
  | leaf a => intro rest; exact .leaf a rest
  | @paren φ ts _ ih =>
    intro rest
    simp only [List.cons_append, List.append_assoc, List.nil_append]
    have hn : ∀ p : Op → Bool, NotOp p (Tok.rpar :: rest) := fun p o ts e => by cases e
    exact .paren (ih (.rpar :: rest) φ _ (hn _) (hn _) (.noAdd (hn _)))
  | atom _ ih => intro rest hn; exact .base (ih rest) (.noPow hn)
  | @pow φ ψ ts us _ _ ih1 ih2 =>
    intro rest hn
    rw [List.append_assoc]
    exact .base (ih1 _) (.pow (ih2 rest hn))
  | sign _ _ ih => intro rest hn; exact .sign (ih rest hn)
  | unary _ ih => intro rest χ r hn hl; exact .prod (ih rest hn) hl
  | @mul o φ ψ ts us ho _ _ ih1 ih2 =>
    intro rest χ r hn hl
    rw [List.append_assoc]
    refine ih1 _ χ r (notOp_op ?_) (.mul (isMul_iff.2 ho) (ih2 rest hn) hl)
    rcases ho with rfl | rfl <;> rfl
  | @prod φ ts _ ih =>
    intro rest χ r hp hm hl
    exact .sum (ih rest φ rest hp (.noMul hm)) hl
  | @add o φ ψ ts us ho _ _ ih1 ih2 =>
    intro rest χ r hp hm hl
    rw [List.append_assoc]
    refine ih1 _ χ r (notOp_op ?_) (notOp_op ?_)
      (.add (isAdd_iff.2 ho) (ih2 rest ψ rest hp (.noMul hm)) hl) <;>
    rcases ho with rfl | rfl <;> rfl

theorem conv_unique {φ ψ : Formula Op α} {ts : List (Tok Op α)} (h : Conv .sum φ ts)
    (h' : Conv .sum ψ ts) : φ = ψ := by
  have hn : ∀ p : Op → Bool, NotOp p ([] : List (Tok Op α)) := fun p o ts e => by cases e
  have h1 := reads_of_conv h [] φ [] (hn _) (hn _) (.noAdd (hn _))
  have h2 := reads_of_conv h' [] ψ [] (hn _) (hn _) (.noAdd (hn _))
  exact (h1.det h2).1

/-- Kinds in order. -/
def Cat.rank : Cat → Nat
  | .atom => 0 | .unary => 1 | .prod => 2 | .sum => 3

theorem conv_up {c d : Cat} {φ : Formula Op α} {ts : List (Tok Op α)} (h : Conv c φ ts)
    (hcd : c.rank ≤ d.rank) : Conv d φ ts := by
  cases c <;> cases d <;> first
    | exact h
    | exact .atom h
    | exact .unary h
    | exact .prod h
    | exact .unary (.atom h)
    | exact .prod (.unary h)
    | exact .prod (.unary (.atom h))
    | (simp [Cat.rank] at hcd)

/-! ### Plain texts are read alike by the code -/

theorem levels_disjoint : levels.Disjoint := by
  unfold Levels.Disjoint levels
  simp only [List.pairwise_cons, List.mem_cons, List.not_mem_nil, or_false, forall_eq_or_imp,
    forall_eq, false_imp_iff, implies_true, List.Pairwise.nil, and_true]
  refine ⟨⟨?_, ?_⟩, ?_⟩ <;> intro o h <;> cases o <;> simp_all [isAdd, isMul, isPow]

/-- The levels that a kind of plain text may use. -/
def PCat.levels : PCat → List (Op → Bool)
  | .atom => []
  | .signed => []
  | .power => [isPow]
  | .prod => [isMul, isPow]
  | .sum => [isAdd, isMul, isPow]

theorem plain_derives {c : PCat} {φ : Formula Op α} {ts : List (Tok Op α)} (h : Plain c φ ts) :
    ∃ t, Derives levels c.levels t ts ∧ t.formula = φ := by
  induction h with
  | leaf a => exact ⟨.atom a, .atom a, by simp only [Tree.formula]⟩
  | paren _ ih =>
    obtain ⟨t, h1, h2⟩ := ih
    exact ⟨t, .paren h1, h2⟩
  | atom _ ih => exact ih
  | sign ho _ ih =>
    obtain ⟨t, h1, h2⟩ := ih
    exact ⟨.pre _ t, .pre (isAdd_iff.2 ho) h1, by simp only [Tree.formula, h2]⟩
  | signed _ ih =>
    obtain ⟨t, h1, h2⟩ := ih
    exact ⟨t, .lift h1, h2⟩
  | pow _ _ ih1 ih2 =>
    obtain ⟨t, h1, h2⟩ := ih1
    obtain ⟨u, h3, h4⟩ := ih2
    exact ⟨.chain t (.one .pow u), .chain h1 (.one rfl h3),
      by simp only [Tree.formula, Rest.formula, h2, h4]⟩
  | power _ ih =>
    obtain ⟨t, h1, h2⟩ := ih
    exact ⟨t, .lift h1, h2⟩
  | mul ho _ _ ih1 ih2 =>
    obtain ⟨t, h1, h2⟩ := ih1
    obtain ⟨u, h3, h4⟩ := ih2
    obtain ⟨t', h5, h6⟩ := derives_snoc (isMul_iff.2 ho) h1 h3
    exact ⟨t', h5, by rw [h6, h2, h4]⟩
  | prod _ ih =>
    obtain ⟨t, h1, h2⟩ := ih
    exact ⟨t, .lift h1, h2⟩
  | add ho _ _ ih1 ih2 =>
    obtain ⟨t, h1, h2⟩ := ih1
    obtain ⟨u, h3, h4⟩ := ih2
    obtain ⟨t', h5, h6⟩ := derives_snoc (isAdd_iff.2 ho) h1 h3
    exact ⟨t', h5, by rw [h6, h2, h4]⟩

/-- The conventional kind of a kind of plain text. -/
def PCat.conv : PCat → Cat
  | .atom => .atom
  | .signed => .unary
  | .power => .unary
  | .prod => .prod
  | .sum => .sum

theorem plain_conv {c : PCat} {φ : Formula Op α} {ts : List (Tok Op α)} (h : Plain c φ ts) :
    Conv c.conv φ ts := by
  induction h with
  | leaf a => exact .leaf a
  | paren _ ih => exact .paren ih
  | atom _ ih => exact .atom ih
  | sign ho _ ih => exact .sign ho ih
  | signed _ ih => exact ih
  | pow _ _ ih1 ih2 => exact .pow ih1 ih2
  | power _ ih => exact .unary ih
  | mul ho _ _ ih1 ih2 => exact .mul ho ih1 ih2
  | prod _ ih => exact .prod ih
  | add ho _ _ ih1 ih2 => exact .add ho ih1 ih2

mutual
theorem valTree_formula {V : Type} (A : Alg V) (lv : α → V) : ∀ t : Tree Op α,
    valTree A lv t = valF A lv t.formula
  | .atom a => by simp only [valTree, Tree.formula, valF]
  | .pre o t => by simp only [valTree, Tree.formula, valF, valTree_formula A lv t]
  | .chain t r => by
      simp only [valTree, Tree.formula]
      exact valRest_formula A lv r (valTree_formula A lv t)
theorem valRest_formula {V : Type} (A : Alg V) (lv : α → V) : ∀ (r : Rest Op α) {acc : V}
    {φ : Formula Op α}, acc = valF A lv φ → valRest A lv acc r = valF A lv (r.formula φ)
  | .one o t, acc, φ, h => by
      simp only [valRest, Rest.formula, valF, h, valTree_formula A lv t]
  | .more o t r, acc, φ, h => by
      simp only [valRest, Rest.formula]
      exact valRest_formula A lv r (by simp only [valF, h, valTree_formula A lv t])
end

/-! ### LaTeX text -/

/-- The text is of the kind and reads as a formula with the value. -/
def ReadsAs {V : Type} (A : Alg V) (av : Atom → V) (c : Cat) (v : V) (ts : Text) : Prop :=
  ∃ φ, Conv c φ ts ∧ valF A av φ = v

theorem readsAs_up {V : Type} {A : Alg V} {av : Atom → V} {c d : Cat} {v : V} {ts : Text}
    (h : ReadsAs A av c v ts) (hcd : c.rank ≤ d.rank) : ReadsAs A av d v ts := by
  obtain ⟨φ, h1, h2⟩ := h
  exact ⟨φ, conv_up h1 hcd, h2⟩

theorem readsAs_paren {V : Type} {A : Alg V} {av : Atom → V} {c : Cat} {v : V} {ts : Text} (b : Bool)
    (h : ReadsAs A av c v ts) : ReadsAs A av (parenKind b c) v (paren b ts) := by
  cases b with
  | false => exact h
  | true =>
    obtain ⟨φ, h1, h2⟩ := h
    exact ⟨φ, .paren (conv_up h1 (by cases c <;> simp [Cat.rank])), h2⟩

theorem readsAs_zero {V : Type} {A : Alg V} {av : Atom → V} (hz : av .zero = A.zero) {c : Cat} {v : V}
    (h : ReadsAs A av c v [.atom .zero]) : v = A.zero := by
  obtain ⟨φ, h1, h2⟩ := h
  have := conv_unique (conv_up h1 (d := .sum) (by cases c <;> simp [Cat.rank]))
    (.prod (.unary (.atom (.leaf Atom.zero))))
  subst this
  rw [← h2]
  exact hz

theorem readsAs_fmt {V : Type} {A : Alg V} {av : Atom → V} {o : Op} {c e k : Cat} {x y : V}
    {v w t : Text} (hv : ReadsAs A av c x v) (hw : ReadsAs A av e y w)
    (hk : stepKind o t c e = some k) : ReadsAs A av k (A.op o x y) (fmt o v w) := by
  obtain ⟨φ, h1, h2⟩ := hv
  obtain ⟨ψ, h3, h4⟩ := hw
  have up : ∀ {c : Cat} {χ : Formula Op Atom} {ts : Text}, Conv c χ ts → Conv .sum χ ts :=
    fun h => conv_up h (by rename_i c _ _; cases c <;> simp [Cat.rank])
  cases o with
  | plus =>
    simp only [stepKind] at hk
    split at hk
    · cases hk
    · rename_i he
      cases hk
      exact ⟨.bin .plus φ ψ, .add (.inl rfl) (up h1)
        (conv_up h3 (by cases e <;> simp_all [Cat.rank])), by simp only [valF, h2, h4]⟩
  | minus =>
    simp only [stepKind] at hk
    split at hk
    · cases hk
    · rename_i he
      cases hk
      exact ⟨.bin .minus φ ψ, .add (.inr rfl) (up h1)
        (conv_up h3 (by cases e <;> simp_all [Cat.rank])), by simp only [valF, h2, h4]⟩
  | times =>
    simp only [stepKind] at hk
    split at hk
    · cases hk
    · rename_i he
      cases hk
      exact ⟨.bin .times φ ψ, .mul (.inl rfl) (conv_up h1 (by cases c <;> simp_all [Cat.rank]))
        (conv_up h3 (by cases e <;> simp_all [Cat.rank])), by simp only [valF, h2, h4]⟩
  | div =>
    cases hk
    exact ⟨.bin .div φ ψ, .paren (.prod (.mul (.inr rfl) (.unary (.atom (.paren (up h1))))
      (.atom (.paren (up h3))))), by simp only [valF, h2, h4]⟩
  | pow =>
    simp only [stepKind] at hk
    split at hk
    · rename_i hc
      cases hk
      subst hc
      exact ⟨.bin .pow φ ψ, .pow h1 (.atom (.paren (up h3))), by simp only [valF, h2, h4]⟩
    · cases hk

theorem stepKind_add {o : Op} (ho : isAdd o = true) {v : Text} {c e k : Cat}
    (h : stepKind o v c e = some k) : k = .sum ∧ (o = .minus → v ≠ [.atom .zero]) := by
  rcases isAdd_iff.1 ho with rfl | rfl
  · simp only [stepKind] at h
    split at h
    · cases h
    · cases h; exact ⟨rfl, fun h => by cases h⟩
  · simp only [stepKind] at h
    split at h
    · cases h
    · rename_i hn
      cases h; exact ⟨rfl, fun _ hc => hn (.inr hc)⟩

theorem readsAs_step {V : Type} {A : Alg V} (hA : A.Lawful) {av : Atom → V} (hz : av .zero = A.zero)
    {o : Op} {c e k : Cat} {x y : V} {v w : Text} {first nested : Bool}
    (hv : ReadsAs A av c x v) (hw : ReadsAs A av e y w)
    (hk : stepKind o (paren first v) (parenKind first c) (parenKind nested e) = some k) :
    ReadsAs A av k (A.op o x y) (printStep first nested v o w) := by
  unfold printStep
  by_cases h1 : skip w o = true
  · rw [if_pos h1]
    simp only [skip, Bool.and_eq_true, decide_eq_true_eq] at h1
    obtain ⟨rfl, ho⟩ := h1
    obtain ⟨rfl, _⟩ := stepKind_add ho hk
    have hy := readsAs_zero hz hw
    have : A.op o x y = x := by
      rw [hy]
      rcases isAdd_iff.1 ho with rfl | rfl
      · exact hA.add_zero x
      · exact hA.sub_zero x
    rw [this]
    exact readsAs_up hv (by cases c <;> simp [Cat.rank])
  · rw [if_neg h1]
    by_cases h2 : skip (paren first v) o = true
    · rw [if_pos h2]
      simp only [skip, Bool.and_eq_true, decide_eq_true_eq] at h2
      obtain ⟨hp, ho⟩ := h2
      obtain ⟨rfl, hm⟩ := stepKind_add ho hk
      have hpv := readsAs_paren first hv
      rw [hp] at hpv
      have hx := readsAs_zero hz hpv
      have : A.op o x y = y := by
        rw [hx]
        rcases isAdd_iff.1 ho with rfl | rfl
        · exact hA.zero_add y
        · exact absurd hp (hm rfl)
      rw [this]
      exact readsAs_up (readsAs_paren nested hw) (by cases parenKind nested e <;> simp [Cat.rank])
    · rw [if_neg h2]
      exact readsAs_fmt (readsAs_paren first hv) (readsAs_paren nested hw) hk

mutual
theorem print_ok {V : Type} {A : Alg V} (hA : A.Lawful) {av : Atom → V} (hz : av .zero = A.zero)
    {lt : α → Text} {lk : α → Option Cat} {lv : α → V}
    (hl : ∀ a c, lk a = some c → ReadsAs A av c (lv a) (lt a)) : ∀ (t : Tree Op α) {c : Cat},
    kind lt lk t = some c → ReadsAs A av c (valTree A lv t) (printTree lt t)
  | .atom a, c, h => by
      simp only [kind] at h
      simp only [valTree, printTree]
      exact hl a c h
  | .pre o t, c, h => by
      simp only [kind] at h
      cases hk : kind lt lk t with
      | none => rw [hk] at h; cases h
      | some d =>
        rw [hk] at h
        simp only at h
        split at h
        · rename_i hc
          cases h
          simp only [Bool.and_eq_true, Bool.or_eq_true, decide_eq_true_eq] at hc
          obtain ⟨φ, h1, h2⟩ := readsAs_up (d := .unary) (print_ok hA hz hl t hk)
            (by rcases hc.2 with rfl | rfl <;> simp [Cat.rank])
          simp only [valTree, printTree]
          exact ⟨.pre o φ, .sign (isAdd_iff.1 hc.1) h1, by simp only [valF, h2]⟩
        · cases h
  | .chain t r, c, h => by
      simp only [kind] at h
      cases hk : kind lt lk t with
      | none => rw [hk] at h; cases h
      | some d =>
        rw [hk] at h
        simp only [valTree, printTree]
        exact printRest_ok hA hz hl r (print_ok hA hz hl t hk) h
theorem printRest_ok {V : Type} {A : Alg V} (hA : A.Lawful) {av : Atom → V} (hz : av .zero = A.zero)
    {lt : α → Text} {lk : α → Option Cat} {lv : α → V}
    (hl : ∀ a c, lk a = some c → ReadsAs A av c (lv a) (lt a)) : ∀ (r : Rest Op α) {first : Bool}
    {v : Text} {c k : Cat} {x : V}, ReadsAs A av c x v → kindRest lt lk first v c r = some k →
    ReadsAs A av k (valRest A lv x r) (printRest lt first v r)
  | .one o t, first, v, c, k, x, hv, h => by
      simp only [kindRest] at h
      cases hk : kind lt lk t with
      | none => rw [hk] at h; cases h
      | some e =>
        rw [hk] at h
        simp only [valRest, printRest]
        exact readsAs_step hA hz hv (print_ok hA hz hl t hk) h
  | .more o t r, first, v, c, k, x, hv, h => by
      simp only [kindRest] at h
      cases hk : kind lt lk t with
      | none => rw [hk] at h; cases h
      | some e =>
        rw [hk] at h
        simp only at h
        cases hs : stepKind o (paren first v) (parenKind first c) (parenKind (isChain t) e) with
        | none => rw [hs] at h; cases h
        | some c' =>
          rw [hs] at h
          simp only [valRest, printRest]
          exact printRest_ok hA hz hl r (readsAs_step hA hz hv (print_ok hA hz hl t hk) hs) h
end

theorem latex_ok {V : Type} {A : Alg V} (hA : A.Lawful) {av : Atom → V} (hz : av .zero = A.zero)
    (subs : String → Tree Op Atom) (t : Tree Op Leaf) (h : Printable subs t) :
    ∃ φ, Conv .sum φ (latex subs t) ∧ valF A av φ = valTree A (leafVal A av subs) t := by
  unfold Printable at h
  obtain ⟨c, hc⟩ := Option.isSome_iff_exists.1 h
  have hatom : ∀ (a : Atom) c, (fun _ => some Cat.atom) a = some c →
      ReadsAs A av c (av a) [.atom a] := by
    intro a c h
    cases h
    exact ⟨.leaf a, .leaf a, rfl⟩
  have hl : ∀ (a : Leaf) c, leafKind subs a = some c →
      ReadsAs A av c (leafVal A av subs a) (leafText subs a) := by
    intro a c h
    cases a with
    | atom a => cases h; exact ⟨.leaf a, .leaf a, rfl⟩
    | sub n => exact print_ok hA hz hatom (subs n) h
  exact readsAs_up (print_ok hA hz hl t hc) (by cases c <;> simp [Cat.rank])

end Arith
end Calliope
