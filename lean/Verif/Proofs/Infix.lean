import Verif.Spec.Infix

namespace Calliope
namespace Infix

variable {O α : Type}

/-- What may follow a match of the levels `ls`. -/
def Stop (ls : List (O → Bool)) (rest : List (Tok O α)) : Prop :=
  ∀ o ts, rest = .op o :: ts → ∀ b ∈ ls, b o = false

theorem sound_aux (g : Levels O) : ∀ f : Nat,
    (∀ ls (ts : List (Tok O α)) t r, pExpr g f ls ts = some (t, r) →
      ∃ c, ts = c ++ r ∧ Derives g ls t c) ∧
    (∀ b ls (ts : List (Tok O α)) rs r, pRest g f b ls ts = some (rs, r) →
      ∃ c, ts = c ++ r ∧ DerivesRest g b ls rs c) := by
  intro f
  induction f with
  | zero => exact ⟨fun _ _ _ _ h => by simp [pExpr] at h, fun _ _ _ _ _ h => by simp [pRest] at h⟩
  | succ f ih =>
    obtain ⟨ihE, ihR⟩ := ih
    constructor
    · intro ls ts t r h
      cases ls with
      | nil =>
        cases ts with
        | nil => simp [pExpr] at h
        | cons tok ts =>
          cases tok with
          | rpar => simp [pExpr] at h
          | atom a =>
            simp only [pExpr, Option.some.injEq, Prod.mk.injEq] at h
            obtain ⟨rfl, rfl⟩ := h
            exact ⟨[.atom a], rfl, .atom a⟩
          | op o =>
            simp only [pExpr] at h
            split at h
            · rename_i ho
              split at h
              · rename_i t' r' he
                simp only [Option.some.injEq, Prod.mk.injEq] at h
                obtain ⟨rfl, rfl⟩ := h
                obtain ⟨c, rfl, hd⟩ := ihE _ _ _ _ he
                exact ⟨.op o :: c, rfl, .pre ho hd⟩
              · cases h
            · cases h
          | lpar =>
            simp only [pExpr] at h
            split at h
            · rename_i t' r' he
              simp only [Option.some.injEq, Prod.mk.injEq] at h
              obtain ⟨rfl, rfl⟩ := h
              obtain ⟨c, rfl, hd⟩ := ihE _ _ _ _ he
              exact ⟨.lpar :: (c ++ [.rpar]), by simp, .paren hd⟩
            · cases h
      | cons b ls =>
        simp only [pExpr] at h
        split at h
        · cases h
        · rename_i t' r' he
          obtain ⟨c, rfl, hd⟩ := ihE _ _ _ _ he
          split at h
          · simp only [Option.some.injEq, Prod.mk.injEq] at h
            obtain ⟨rfl, rfl⟩ := h
            exact ⟨c, rfl, .lift hd⟩
          · rename_i rs r'' hr
            simp only [Option.some.injEq, Prod.mk.injEq] at h
            obtain ⟨rfl, rfl⟩ := h
            obtain ⟨c', rfl, hd'⟩ := ihR _ _ _ _ _ hr
            exact ⟨c ++ c', by simp, .chain hd hd'⟩
    · intro b ls ts rs r h
      cases ts with
      | nil => simp [pRest] at h
      | cons tok ts =>
        cases tok with
        | rpar => simp [pRest] at h
        | lpar => simp [pRest] at h
        | atom a => simp [pRest] at h
        | op o =>
          simp only [pRest] at h
          split at h
          · rename_i ho
            split at h
            · cases h
            · rename_i t' r' he
              obtain ⟨c, rfl, hd⟩ := ihE _ _ _ _ he
              split at h
              · simp only [Option.some.injEq, Prod.mk.injEq] at h
                obtain ⟨rfl, rfl⟩ := h
                exact ⟨.op o :: c, by simp, .one ho hd⟩
              · rename_i rs' r'' hr
                simp only [Option.some.injEq, Prod.mk.injEq] at h
                obtain ⟨rfl, rfl⟩ := h
                obtain ⟨c', rfl, hd'⟩ := ihR _ _ _ _ _ hr
                exact ⟨.op o :: (c ++ c'), by simp, .more ho hd hd'⟩
          · cases h

theorem Stop.tail {b : O → Bool} {ls : List (O → Bool)} {rest : List (Tok O α)}
    (h : Stop (b :: ls) rest) : Stop ls rest :=
  fun o ts e c hc => h o ts e c (List.mem_cons_of_mem _ hc)

theorem pRest_stop (g : Levels O) {b : O → Bool} {ls : List (O → Bool)} {rest : List (Tok O α)}
    (h : Stop (b :: ls) rest) (f : Nat) : pRest g f b ls rest = none := by
  cases f with
  | zero => simp [pRest]
  | succ f =>
    cases rest with
    | nil => simp [pRest]
    | cons tok ts =>
      cases tok with
      | op o => simp [pRest, h o ts rfl b (List.mem_cons_self ..)]
      | _ => simp [pRest]

theorem rest_starts {g : Levels O} {b : O → Bool} {ls : List (O → Bool)} {r : Rest O α}
    {rs : List (Tok O α)} (h : DerivesRest g b ls r rs) : ∃ o ts, rs = .op o :: ts ∧ b o = true := by
  cases h with
  | one ho _ => exact ⟨_, _, rfl, ho⟩
  | more ho _ _ => exact ⟨_, _, rfl, ho⟩

theorem stop_of_rest {g : Levels O} {b : O → Bool} {ls : List (O → Bool)} {r : Rest O α}
    {rs rest : List (Tok O α)}
    (hdis : ∀ c ∈ ls, ∀ o, b o = true → c o = false)
    (h : DerivesRest g b ls r rs) : Stop ls (rs ++ rest) := by
  obtain ⟨o, ts, rfl, ho⟩ := rest_starts h
  intro o' ts' e c hc
  simp only [List.cons_append, List.cons.injEq, Tok.op.injEq] at e
  obtain ⟨rfl, _⟩ := e
  exact hdis c hc o ho

/-- The levels `ls` are the tail of the levels of the grammar. -/
theorem dis_of_suffix {g : Levels O} (hg : g.Disjoint) {b : O → Bool} {ls : List (O → Bool)}
    (hs : (b :: ls) <:+ g.bins) : ∀ c ∈ ls, ∀ o, b o = true → c o = false := by
  have := hg.sublist hs.sublist
  exact (List.pairwise_cons.1 this).1

theorem suffix_tail {b : O → Bool} {ls l : List (O → Bool)} (hs : (b :: ls) <:+ l) : ls <:+ l :=
  (List.suffix_cons b ls).trans hs

theorem derives_ne {g : Levels O} {ls : List (O → Bool)} {t : Tree O α} {ts : List (Tok O α)}
    (h : Derives g ls t ts) : 1 ≤ ts.length := by
  induction h using Derives.rec (motive_2 := fun _ _ _ _ _ => True) with
  | atom => simp
  | pre => simp
  | paren => simp
  | lift _ ih => exact ih
  | chain _ _ ih _ => simp; omega
  | one => trivial
  | more => trivial

theorem complete_aux (g : Levels O) (hg : g.Disjoint) {ls : List (O → Bool)} {t : Tree O α}
    {ts : List (Tok O α)} (h : Derives g ls t ts) :
    ls <:+ g.bins → ∀ rest f, Stop ls rest →
      (g.bins.length + 3) * ts.length + ls.length + 1 ≤ f →
      pExpr g f ls (ts ++ rest) = some (t, rest) := by
  induction h using Derives.rec
    (motive_2 := fun b ls r rs _ => (b :: ls) <:+ g.bins → ∀ rest f, Stop (b :: ls) rest →
      (g.bins.length + 3) * rs.length ≤ f → pRest g f b ls (rs ++ rest) = some (r, rest)) with
  | atom a =>
    intro _ rest f _ hf
    cases f with
    | zero => omega
    | succ f => simp [pExpr]
  | @pre o t ts ho _ ih =>
    intro hs rest f hst hf
    cases f with
    | zero => omega
    | succ f =>
      simp only [List.length_cons, Nat.mul_add, Nat.mul_one] at hf
      simp only [List.cons_append, pExpr, ho, if_true]
      rw [ih hs rest f hst (by omega)]
  | @paren t ts _ ih =>
    intro hs rest f hst hf
    cases f with
    | zero => omega
    | succ f =>
      simp only [List.length_cons, List.length_append, List.length_nil, Nat.mul_add, Nat.mul_one] at hf
      simp only [List.cons_append, List.append_assoc, List.nil_append, pExpr]
      rw [ih (List.suffix_refl _) (.rpar :: rest) f (fun o ts e => by cases e) (by omega)]
  | @lift b ls t ts _ ih =>
    intro hs rest f hst hf
    cases f with
    | zero => omega
    | succ f =>
      simp only [List.length_cons] at hf
      simp only [pExpr]
      rw [ih (suffix_tail hs) rest f hst.tail (by omega)]
      simp only [pRest_stop g hst]
  | @chain b ls t r ts rs _ hr ih ihr =>
    intro hs rest f hst hf
    cases f with
    | zero => omega
    | succ f =>
      simp only [List.length_cons, List.length_append, Nat.mul_add] at hf
      simp only [pExpr, List.append_assoc]
      rw [ih (suffix_tail hs) (rs ++ rest) f (stop_of_rest (dis_of_suffix hg hs) hr) (by omega)]
      simp only []
      rw [ihr hs rest f hst (by omega)]
  | @one b ls o t ts ho _ ih =>
    rename_i hs rest f hst hf
    have hl : ls.length + 1 ≤ g.bins.length := by simpa using hs.length_le
    cases f with
    | zero => simp only [List.length_cons, Nat.mul_add] at hf; omega
    | succ f =>
      simp only [List.length_cons, Nat.mul_add, Nat.mul_one] at hf
      simp only [List.cons_append, pRest, ho, if_true]
      rw [ih (suffix_tail hs) rest f hst.tail (by omega)]
      simp only [pRest_stop g hst]
  | @more b ls o t r ts rs ho _ hr ih ihr =>
    rename_i hs rest f hst hf
    have hl : ls.length + 1 ≤ g.bins.length := by simpa using hs.length_le
    cases f with
    | zero => simp only [List.length_cons, Nat.mul_add] at hf; omega
    | succ f =>
      simp only [List.length_cons, List.length_append, Nat.mul_add, Nat.mul_one] at hf
      simp only [List.cons_append, pRest, ho, if_true, List.append_assoc]
      rw [ih (suffix_tail hs) (rs ++ rest) f (stop_of_rest (dis_of_suffix hg hs) hr) (by omega)]
      simp only []
      rw [ihr hs rest f hst (by omega)]

/-- The parser accepts exactly the renderings of the grammar and returns the tree rendered. -/
theorem parse_iff (g : Levels O) (hg : g.Disjoint) (ts : List (Tok O α)) (t : Tree O α) :
    parse g ts = some t ↔ Derives g g.bins t ts := by
  constructor
  · intro h
    unfold parse at h
    split at h
    · rename_i t' he
      cases h
      obtain ⟨c, rfl, hd⟩ := (sound_aux g _).1 _ _ _ _ he
      simpa using hd
    · cases h
  · intro h
    unfold parse
    have := complete_aux g hg h (List.suffix_refl _) [] (fuelFor g ts.length)
      (fun o ts e => by cases e) (by unfold fuelFor; omega)
    rw [List.append_nil] at this
    rw [this]

theorem derives_lift {g : Levels O} {t : Tree O α} {ts : List (Tok O α)} :
    ∀ {ls : List (O → Bool)}, Derives g [] t ts → Derives g ls t ts
  | [], h => h
  | _ :: _, h => .lift (derives_lift h)

theorem derives_chain {g : Levels O} {t u : Tree O α} {ts us : List (Tok O α)} {o : O}
    (ht : Derives g [] t ts) (hu : Derives g [] u us) :
    ∀ {ls : List (O → Bool)}, (∃ b ∈ ls, b o = true) →
      Derives g ls (.chain t (.one o u)) (ts ++ (.op o :: us))
  | [], ⟨b, hb, _⟩ => by cases hb
  | b :: ls, ⟨c, hc, ho⟩ => by
      rcases List.mem_cons.1 hc with rfl | hc
      · exact .chain (derives_lift ht) (.one ho (derives_lift hu))
      · exact .lift (derives_chain ht hu ⟨c, hc, ho⟩)

/-- The tree that a fully parenthesised formula is parsed to. -/
def Formula.tree : Formula O α → Tree O α
  | .leaf a => .atom a
  | .pre o φ => .pre o φ.tree
  | .bin o φ ψ => .chain φ.tree (.one o ψ.tree)

theorem derives_write (g : Levels O) : ∀ φ : Formula O α, φ.Ok g → Derives g g.bins φ.tree φ.write
  | .leaf a, _ => derives_lift (.atom a)
  | .pre o φ, h => derives_lift (.pre h.1 (.paren (derives_write g φ h.2)))
  | .bin o φ ψ, h =>
      derives_chain (.paren (derives_write g φ h.2.1)) (.paren (derives_write g ψ h.2.2)) h.1

theorem formula_tree : ∀ φ : Formula O α, φ.tree.formula = φ
  | .leaf a => rfl
  | .pre o φ => by simp only [Formula.tree, Tree.formula, formula_tree φ]
  | .bin o φ ψ => by
      simp only [Formula.tree, Tree.formula, Rest.formula, formula_tree φ, formula_tree ψ]

theorem rest_snoc {g : Levels O} {b : O → Bool} {ls : List (O → Bool)} {o : O} {u : Tree O α}
    {us : List (Tok O α)} (ho : b o = true) (hu : Derives g ls u us) :
    ∀ {r : Rest O α} {rs : List (Tok O α)}, DerivesRest g b ls r rs →
    ∃ r', DerivesRest g b ls r' (rs ++ (.op o :: us)) ∧
      ∀ acc, r'.formula acc = .bin o (r.formula acc) u.formula
  | .one o' t, _, .one (ts := ts) ho' ht =>
      ⟨.more o' t (.one o u), by
        have := DerivesRest.more ho' ht (.one ho hu)
        simpa using this, fun acc => by simp only [Rest.formula]⟩
  | .more o' t r, _, .more (ts := ts) (rs := rs) ho' ht hr => by
      obtain ⟨r', h1, h2⟩ := rest_snoc ho hu hr
      refine ⟨.more o' t r', ?_, fun acc => by simp only [Rest.formula, h2]⟩
      have := DerivesRest.more ho' ht h1
      simpa using this

theorem derives_snoc {g : Levels O} {b : O → Bool} {ls : List (O → Bool)} {o : O}
    {t u : Tree O α} {ts us : List (Tok O α)} (ho : b o = true) (ht : Derives g (b :: ls) t ts)
    (hu : Derives g ls u us) :
    ∃ t', Derives g (b :: ls) t' (ts ++ (.op o :: us)) ∧ t'.formula = .bin o t.formula u.formula := by
  cases ht with
  | lift ht =>
    exact ⟨.chain t (.one o u), .chain ht (.one ho hu), by simp only [Tree.formula, Rest.formula]⟩
  | @chain _ _ t r _ _ ht hr =>
    obtain ⟨r', h1, h2⟩ := rest_snoc ho hu hr
    refine ⟨.chain t r', ?_, by rw [Tree.formula, Tree.formula, h2]⟩
    rw [List.append_assoc]
    exact .chain ht h1

end Infix
end Calliope
