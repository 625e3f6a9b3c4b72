import Verif.Proofs.Scenario

/-! Lemmas on template resolution. -/

namespace Calliope
namespace ModelDefinition
open Dict

/-- Chained bodies merged from the far end. -/
def foldChain : List Def → Except Err Def
  | [] => .ok .nil
  | b :: bs =>
      match foldChain bs with
      | .error e => .error e
      | .ok inh => inh.union b true

theorem chain_det {raw : Def} {n : Key} {bs bs' : List Def} (h : Chain raw n bs)
    (h' : Chain raw n bs') : bs = bs' := by
  induction h generalizing bs' with
  | last h1 h2 =>
    cases h' with
    | last h1' h2' => rw [h1] at h1'; cases h1'; rfl
    | step h1' h2' _ => rw [h1] at h1'; cases h1'; rw [h2] at h2'; cases h2'
  | step h1 h2 _ ih =>
    cases h' with
    | last h1' h2' => rw [h1] at h1'; cases h1'; rw [h2] at h2'; cases h2'
    | step h1' h2' h3' =>
      rw [h1] at h1'; cases h1'; rw [h2] at h2'; cases h2'
      rw [ih h3']

theorem inherits_iff {raw : Def} {n m : Key} : Inherits raw n m ↔
    ∃ body, raw.get1 n = some (.dict body) ∧ body.get1 "template" = some (.leaf (some (.str m))) := by
  unfold Inherits
  rw [lookup_cons]
  rcases hg : raw.get1 n with _ | (x | b)
  · simp
  · simp [Val.lookup]
  · simp [Val.lookup, lookup_single]

theorem chain_inherits {raw : Def} {n m : Key} {bs : List Def} (h : Chain raw n bs)
    (hi : Inherits raw n m) : ∃ b bs', bs = b :: bs' ∧ Chain raw m bs' := by
  obtain ⟨body, h1, h2⟩ := inherits_iff.1 hi
  cases h with
  | last a b =>
    rw [lookup_single] at a b
    rw [h1] at a; cases a; rw [h2] at b; cases b
  | step a b c =>
    rw [lookup_single] at a b
    rw [h1] at a; cases a; rw [h2] at b; cases b
    exact ⟨_, _, rfl, c⟩

theorem chain_inheritsPlus {raw : Def} {n m : Key} {bs : List Def} (h : Chain raw n bs)
    (hi : InheritsPlus raw n m) : ∃ bs', bs'.length < bs.length ∧ Chain raw m bs' := by
  induction hi generalizing bs with
  | one hi =>
    obtain ⟨b, bs', rfl, hc⟩ := chain_inherits h hi
    exact ⟨bs', by simp, hc⟩
  | more hi _ ih =>
    obtain ⟨b, bs', rfl, hc⟩ := chain_inherits h hi
    obtain ⟨bs'', hl, hc'⟩ := ih hc
    exact ⟨bs'', by simp; omega, hc'⟩

theorem chain_not_self {raw : Def} {n : Key} {bs : List Def} (h : Chain raw n bs) :
    ¬ InheritsPlus raw n n := by
  intro hi
  obtain ⟨bs', hl, hc⟩ := chain_inheritsPlus h hi
  rw [chain_det h hc] at hl
  omega

theorem chain_not_circular {raw : Def} {n : Key} {bs : List Def} (h : Chain raw n bs) :
    ¬ Circular raw n := by
  rintro (hi | ⟨m, h1, h2⟩)
  · exact chain_not_self h hi
  · obtain ⟨bs', _, hc⟩ := chain_inheritsPlus h h1
    exact chain_not_self hc h2

theorem InheritsPlus.trans {raw : Def} {a b c : Key} (h1 : InheritsPlus raw a b)
    (h2 : InheritsPlus raw b c) : InheritsPlus raw a c := by
  induction h1 with
  | one h => exact .more h h2
  | more h _ ih => exact .more h (ih h2)

/-- What the memo of resolved templates holds. -/
structure MemoOk (raw memo : Def) : Prop where
  noLeaf : ∀ n a, memo.get1 n ≠ some (.leaf a)
  sound : ∀ n r, memo.get1 n = some (.dict r) →
    r.WF ∧ ∃ bs, Chain raw n bs ∧ foldChain bs = .ok r

theorem memoOk_nil (raw : Def) : MemoOk raw .nil := ⟨by simp [get1], by simp [get1]⟩

theorem resolveTemplate_sound (raw memo : Def) (hraw : raw.WF) (hm : MemoOk raw memo)
    (fuel : Nat) (stack : List String) (n : Key) (r : Def)
    (h : resolveTemplate raw memo fuel stack n = some (.ok r)) :
    r.WF ∧ ∃ bs, Chain raw n bs ∧ foldChain bs = .ok r := by
  induction fuel generalizing stack n r with
  | zero => simp [resolveTemplate] at h
  | succ fuel ih =>
    simp only [resolveTemplate] at h
    split at h
    · cases h
    · rcases hg : raw.get1 n with _ | (x | body)
      · simp [hg] at h
      · simp [hg] at h
      · simp only [hg] at h
        have hbody : body.WF := WF_get1 hraw hg
        have hlocal : (body.del1 callKey).WF := WF_del1 hbody
        have hraw1 : raw.lookup [n] = some (.dict body) := by rw [lookup_single]; exact hg
        rcases hc : body.get1 callKey with _ | (x | e)
        · -- no inheritance
          simp only [hc, union_nil false .nil trivial] at h
          rw [union_nil true _ hlocal] at h
          cases h
          refine ⟨hlocal, [body.del1 callKey], .last hraw1 (by rw [lookup_single]; exact hc), ?_⟩
          simp [foldChain, union_nil true _ hlocal]
        · match x, hc, h with
          | none, hc, h => simp [hc] at h
          | some (.int i), hc, h => simp [hc] at h
          | some (.bool b), hc, h => simp [hc] at h
          | some (.list o), hc, h => simp [hc] at h
          | some (.other o), hc, h => simp [hc] at h
          | some (.str m), hc, h =>
            simp only [hc] at h
            -- the inherited template
            have key : ∀ inh, (inh.WF ∧ ∃ bs, Chain raw m bs ∧ foldChain bs = .ok inh) →
                inh.union (body.del1 callKey) true = .ok r →
                r.WF ∧ ∃ bs, Chain raw n bs ∧ foldChain bs = .ok r := by
              rintro inh ⟨hw, bs, hch, hf⟩ hu
              refine ⟨WF_union _ _ _ _ hw hlocal hu, body.del1 callKey :: bs, ?_, ?_⟩
              · exact .step hraw1 (by rw [lookup_single]; exact hc) hch
              · simp [foldChain, hf, hu]
            rcases hmm : memo.get1 m with _ | (y | t)
            · simp only [hmm] at h
              rcases hr : resolveTemplate raw memo fuel (n :: stack) m with _ | (e | inh)
              · simp [hr] at h
              · simp [hr] at h
              · simp only [hr] at h
                have hs := ih _ _ _ hr
                rw [union_nil false _ hs.1] at h
                exact key inh hs (by simpa using h)
            · exact absurd hmm (hm.noLeaf m y)
            · simp only [hmm] at h
              have hs := hm.sound m t hmm
              rw [union_nil false _ hs.1] at h
              exact key t hs (by simpa using h)
        · simp [hc] at h

/-- Enough depth: more than the number of templates not on the stack. -/
theorem resolveTemplate_returns (raw memo : Def) (fuel : Nat) (stack : List String) (n : Key)
    (hf : (raw.keys.filter (fun k => decide (k ∉ stack))).length < fuel) :
    resolveTemplate raw memo fuel stack n ≠ none := by
  induction fuel generalizing stack n with
  | zero => omega
  | succ fuel ih =>
    simp only [resolveTemplate]
    split
    · simp
    · rename_i hns
      rcases hg : raw.get1 n with _ | (x | body)
      · simp
      · simp
      · simp only []
        have hin : n ∈ raw.keys := keys_of_get1 hg
        have hlt : (raw.keys.filter (fun k => decide (k ∉ n :: stack))).length < fuel := by
          have : (raw.keys.filter (fun k => decide (k ∉ n :: stack))).length
              < (raw.keys.filter (fun k => decide (k ∉ stack))).length := by
            have hsub : raw.keys.filter (fun k => decide (k ∉ n :: stack))
                = (raw.keys.filter (fun k => decide (k ∉ stack))).filter (fun k => decide (k ≠ n)) := by
              rw [List.filter_filter]
              congr 1
              funext k
              simp
            rw [hsub]
            apply List.length_filter_lt_length_iff_exists.2
            exact ⟨n, List.mem_filter.2 ⟨hin, by simpa using hns⟩, by simp⟩
          omega
        have step : ∀ inh : Option (Except Err Def), inh ≠ none →
            (match inh with
              | none => none
              | some (.error e) => some (.error e)
              | some (.ok inh) =>
                  match (Dict.nil : Def).union inh false with
                  | .error e => some (.error e)
                  | .ok result => some (result.union (body.del1 callKey) true)) ≠ none := by
          intro inh hinh
          match inh with
          | none => exact absurd rfl hinh
          | some (.error e) => simp
          | some (.ok i) =>
            simp only []
            cases (Dict.nil : Def).union i false <;> simp
        apply step
        rcases hc : body.get1 callKey with _ | (x | e)
        · simp
        · match x with
          | none => simp
          | some (.int i) => simp
          | some (.bool b) => simp
          | some (.list o) => simp
          | some (.other o) => simp
          | some (.str m) =>
            simp only []
            rcases hmm : memo.get1 m with _ | (y | t)
            · exact ih _ _ hlt
            · simp
            · simp
        · simp

theorem resolveTemplate_returns' (raw memo : Def) (n : Key) :
    resolveTemplate raw memo (raw.keys.length + 1) [] n ≠ none := by
  apply resolveTemplate_returns
  have := List.length_filter_le (fun k => decide (k ∉ ([] : List String))) raw.keys
  omega

/-- Every way to fail means that the template has no finite chain of defined bodies that
merge. -/
theorem resolveTemplate_error (raw memo : Def) (hraw : raw.WF) (hm : MemoOk raw memo)
    (fuel : Nat) (stack : List String) (n : Key) (e : Err)
    (hst : ∀ k ∈ stack, InheritsPlus raw k n)
    (h : resolveTemplate raw memo fuel stack n = some (.error e)) :
    (¬ ∃ bs r, Chain raw n bs ∧ foldChain bs = .ok r) ∧
    (e = .modelError ↔ Circular raw n) := by
  induction fuel generalizing stack n e with
  | zero => simp [resolveTemplate] at h
  | succ fuel ih =>
    simp only [resolveTemplate] at h
    split at h
    · rename_i hin
      cases h
      have hcirc : Circular raw n := Or.inl (hst n hin)
      exact ⟨fun ⟨bs, r, hc, _⟩ => chain_not_circular hc hcirc, by simp [hcirc]⟩
    · have noinh : ∀ {body : Def}, raw.get1 n = some (.dict body) →
          (∀ m, body.get1 "template" ≠ some (.leaf (some (.str m)))) → ¬ Circular raw n := by
        intro body hg hno
        have : ∀ m, ¬ InheritsPlus raw n m := by
          intro m hm
          have : ∃ k, Inherits raw n k := by
            cases hm with
            | one h => exact ⟨_, h⟩
            | more h _ => exact ⟨_, h⟩
          obtain ⟨k, hk⟩ := this
          obtain ⟨b, h1, h2⟩ := inherits_iff.1 hk
          rw [hg] at h1; cases h1
          exact hno k h2
        rintro (h | ⟨m, h, _⟩)
        · exact this n h
        · exact this m h
      have nodict : (∀ body, raw.get1 n ≠ some (.dict body)) →
          (¬ ∃ bs r, Chain raw n bs ∧ foldChain bs = .ok r) ∧ ¬ Circular raw n := by
        intro hno
        constructor
        · rintro ⟨bs, r, hc, _⟩
          cases hc with
          | last a _ => rw [lookup_single] at a; exact hno _ a
          | step a _ _ => rw [lookup_single] at a; exact hno _ a
        · have : ∀ m, ¬ InheritsPlus raw n m := by
            intro m hm
            have : ∃ k, Inherits raw n k := by
              cases hm with
              | one h => exact ⟨_, h⟩
              | more h _ => exact ⟨_, h⟩
            obtain ⟨k, hk⟩ := this
            obtain ⟨b, h1, _⟩ := inherits_iff.1 hk
            exact hno b h1
          rintro (h | ⟨m, h, _⟩)
          · exact this n h
          · exact this m h
      rcases hg : raw.get1 n with _ | (x | body)
      · simp only [hg] at h; cases h
        obtain ⟨a, b⟩ := nodict (by simp [hg])
        exact ⟨a, by simp [b]⟩
      · simp only [hg] at h; cases h
        obtain ⟨a, b⟩ := nodict (by simp [hg])
        exact ⟨a, by simp [b]⟩
      · simp only [hg] at h
        have hbody : body.WF := WF_get1 hraw hg
        have hlocal : (body.del1 callKey).WF := WF_del1 hbody
        have chain_body : ∀ {bs}, Chain raw n bs →
            (bs = [body.del1 "template"] ∧ body.get1 "template" = none) ∨
            ∃ m bs', body.get1 "template" = some (.leaf (some (.str m))) ∧
              bs = body.del1 "template" :: bs' ∧ Chain raw m bs' := by
          intro bs hc
          cases hc with
          | last a b =>
            rw [lookup_single] at a b
            rw [hg] at a; cases a
            exact Or.inl ⟨rfl, b⟩
          | step a b c =>
            rw [lookup_single] at a b
            rw [hg] at a; cases a
            exact Or.inr ⟨_, _, b, rfl, c⟩
        have bad : ∀ v, body.get1 "template" = some v → (∀ m, v ≠ .leaf (some (.str m))) →
            (¬ ∃ bs r, Chain raw n bs ∧ foldChain bs = .ok r) ∧ ¬ Circular raw n := by
          intro v hv hno
          refine ⟨?_, noinh hg (by intro m hm; rw [hv] at hm; cases hm; exact hno m rfl)⟩
          rintro ⟨bs, r, hc, _⟩
          rcases chain_body hc with ⟨_, h1⟩ | ⟨m, _, h1, _⟩
          · rw [hv] at h1; cases h1
          · rw [hv] at h1; cases h1; exact hno m rfl
        rcases hc : body.get1 callKey with _ | (x | d)
        · simp only [hc, union_nil false .nil trivial] at h
          rw [union_nil true _ hlocal] at h
          cases h
        · match x, hc, h with
          | none, hc, h =>
            simp only [hc] at h; cases h
            obtain ⟨a, b⟩ := bad _ hc (by simp)
            exact ⟨a, by simp [b]⟩
          | some (.int i), hc, h =>
            simp only [hc] at h; cases h
            obtain ⟨a, b⟩ := bad _ hc (by simp)
            exact ⟨a, by simp [b]⟩
          | some (.bool i), hc, h =>
            simp only [hc] at h; cases h
            obtain ⟨a, b⟩ := bad _ hc (by simp)
            exact ⟨a, by simp [b]⟩
          | some (.list i), hc, h =>
            simp only [hc] at h; cases h
            obtain ⟨a, b⟩ := bad _ hc (by simp)
            exact ⟨a, by simp [b]⟩
          | some (.other i), hc, h =>
            simp only [hc] at h; cases h
            obtain ⟨a, b⟩ := bad _ hc (by simp)
            exact ⟨a, by simp [b]⟩
          | some (.str m), hc, h =>
            simp only [hc] at h
            have hinh : Inherits raw n m := inherits_iff.2 ⟨body, hg, hc⟩
            -- circularity of `n` and of `m`
            have hcirc : Circular raw n ↔ Circular raw m := by
              have split1 : ∀ k, InheritsPlus raw n k → k = m ∨ InheritsPlus raw m k := by
                intro k hk
                cases hk with
                | one h =>
                  obtain ⟨b, h1, h2⟩ := inherits_iff.1 h
                  rw [hg] at h1; cases h1; rw [show body.get1 "template" = _ from hc] at h2
                  cases h2; exact Or.inl rfl
                | more h h' =>
                  obtain ⟨b, h1, h2⟩ := inherits_iff.1 h
                  rw [hg] at h1; cases h1; rw [show body.get1 "template" = _ from hc] at h2
                  cases h2; exact Or.inr h'
              constructor
              · rintro (h | ⟨k, h1, h2⟩)
                · rcases split1 n h with h' | h'
                  · rw [← h']; exact Or.inl h
                  · exact Or.inl (h'.trans (.one hinh))
                · rcases split1 k h1 with h' | h'
                  · rw [← h']; exact Or.inl h2
                  · exact Or.inr ⟨k, h', h2⟩
              · rintro (h | ⟨k, h1, h2⟩)
                · exact Or.inr ⟨m, .one hinh, h⟩
                · exact Or.inr ⟨k, .more hinh h1, h2⟩
            have key : ∀ inh, (inh.WF ∧ ∃ bs, Chain raw m bs ∧ foldChain bs = .ok inh) →
                inh.union (body.del1 callKey) true = .error e →
                (¬ ∃ bs r, Chain raw n bs ∧ foldChain bs = .ok r) ∧
                  (e = .modelError ↔ Circular raw n) := by
              rintro inh ⟨hw, bs, hch, hf⟩ hu
              have he := union_err _ _ _ hlocal e hu
              subst he
              have hnc : ¬ Circular raw n := by rw [hcirc]; exact chain_not_circular hch
              refine ⟨?_, by simp [hnc]⟩
              rintro ⟨bs', r, hc', hf'⟩
              rcases chain_body hc' with ⟨_, h1⟩ | ⟨m', bs'', h1, rfl, h3⟩
              · rw [show body.get1 "template" = _ from hc] at h1; cases h1
              · rw [show body.get1 "template" = _ from hc] at h1; cases h1
                have := chain_det hch h3; subst this
                simp only [foldChain, hf] at hf'
                rw [show inh.union (body.del1 "template") true = _ from hu] at hf'
                cases hf'
            rcases hmm : memo.get1 m with _ | (y | t)
            · simp only [hmm] at h
              rcases hr : resolveTemplate raw memo fuel (n :: stack) m with _ | (e' | inh)
              · simp [hr] at h
              · simp only [hr] at h
                cases h
                obtain ⟨h1, h2⟩ := ih (n :: stack) m e (by
                  intro k hk
                  simp at hk
                  rcases hk with rfl | hk
                  · exact .one hinh
                  · exact (hst k hk).trans (.one hinh)) hr
                refine ⟨?_, by rw [hcirc]; exact h2⟩
                rintro ⟨bs', r, hc', hf'⟩
                rcases chain_body hc' with ⟨_, h1⟩ | ⟨m', bs'', h3, rfl, h4⟩
                · rw [show body.get1 "template" = _ from hc] at h1; cases h1
                · rw [show body.get1 "template" = _ from hc] at h3; cases h3
                  simp only [foldChain] at hf'
                  rcases hff : foldChain bs'' with e2 | x
                  · rw [hff] at hf'; cases hf'
                  · exact h1 ⟨bs'', x, h4, hff⟩
              · simp only [hr] at h
                have hs := resolveTemplate_sound raw memo hraw hm _ _ _ _ hr
                rw [union_nil false _ hs.1] at h
                exact key inh hs (by simpa using h)
            · exact absurd hmm (hm.noLeaf m y)
            · simp only [hmm] at h
              have hs := hm.sound m t hmm
              rw [union_nil false _ hs.1] at h
              exact key t hs (by simpa using h)
        · simp only [hc] at h; cases h
          obtain ⟨a, b⟩ := bad _ hc (by simp)
          exact ⟨a, by simp [b]⟩

theorem memoOk_put (raw memo : Def) (hm : MemoOk raw memo) (k : Key) (r : Def) (hr : r.WF)
    (hs : ∃ bs, Chain raw k bs ∧ foldChain bs = .ok r) : MemoOk raw (memo.put1 k (.dict r)) := by
  constructor
  · intro n a
    rw [get1_put1]
    split
    · simp
    · exact hm.noLeaf n a
  · intro n r' h
    rw [get1_put1] at h
    split at h
    · rename_i hnk; cases h; subst hnk; exact ⟨hr, hs⟩
    · exact hm.sound n r' h

theorem resolveAll_sound (raw : Def) (hraw : raw.WF) (todo memo memo' : Def) (hm : MemoOk raw memo)
    (h : resolveAll raw todo memo = some (.ok memo')) :
    MemoOk raw memo' ∧
    (∀ k, (k ∈ todo.keys ∨ ∃ v, memo.get1 k = some v) ↔ ∃ v, memo'.get1 k = some v) := by
  induction todo generalizing memo with
  | nil => simp [resolveAll] at h; subst h; exact ⟨hm, by simp [keys]⟩
  | leaf k a rest _ => simp [resolveAll] at h
  | sub k d rest _ ih =>
    simp only [resolveAll] at h
    rcases hr : resolveTemplate raw memo (raw.keys.length + 1) [] k with _ | (e | r)
    · simp [hr] at h
    · simp [hr] at h
    · simp only [hr] at h
      obtain ⟨hw, hs⟩ := resolveTemplate_sound raw memo hraw hm _ _ _ _ hr
      obtain ⟨h1, h2⟩ := ih _ (memoOk_put raw memo hm k r hw hs) h
      refine ⟨h1, fun j => ?_⟩
      rw [← h2 j, get1_put1]
      by_cases hj : j = k
      · subst hj; simp [keys]
      · simp [keys, hj]

theorem resolveAll_returns (raw todo memo : Def) : resolveAll raw todo memo ≠ none := by
  induction todo generalizing memo with
  | nil => simp [resolveAll]
  | leaf k a rest _ => simp [resolveAll]
  | sub k d rest _ ih =>
    simp only [resolveAll]
    rcases hr : resolveTemplate raw memo (raw.keys.length + 1) [] k with _ | (e | r)
    · exact absurd hr (resolveTemplate_returns' raw memo k)
    · simp
    · exact ih _

/-- If all entries are dictionaries, an error comes from one of the templates. -/
theorem resolveAll_error (raw : Def) (hraw : raw.WF) (todo memo : Def) (hm : MemoOk raw memo) (e : Err)
    (hd : ∀ k v, todo.get1 k = some v → v.isDict = true) (hw : todo.WF)
    (h : resolveAll raw todo memo = some (.error e)) :
    ∃ k ∈ todo.keys, (¬ ∃ bs r, Chain raw k bs ∧ foldChain bs = .ok r) ∧
      (e = .modelError ↔ Circular raw k) := by
  induction todo generalizing memo with
  | nil => simp [resolveAll] at h
  | leaf k a rest _ =>
    have := hd k (.leaf a) (by simp [get1])
    simp [Val.isDict] at this
  | sub k d rest _ ih =>
    simp only [resolveAll] at h
    rcases hr : resolveTemplate raw memo (raw.keys.length + 1) [] k with _ | (e' | r)
    · simp [hr] at h
    · simp only [hr] at h; cases h
      exact ⟨k, by simp [keys], resolveTemplate_error raw memo hraw hm _ [] k e (by simp) hr⟩
    · simp only [hr] at h
      obtain ⟨hw', hs⟩ := resolveTemplate_sound raw memo hraw hm _ _ _ _ hr
      obtain ⟨j, hj, h1⟩ := ih _ (memoOk_put raw memo hm k r hw' hs) (by
        intro j v hjv
        apply hd j v
        have : j ∈ rest.keys := keys_of_get1 hjv
        have hne : k ≠ j := by rintro rfl; exact hw.1 this
        simp [get1, hne, hjv]) hw.2.2 h
      exact ⟨j, by simp [keys, hj], h1⟩

/-! ### Sections -/

def special (k : Key) : Prop := k = callKey ∨ k = sectionKey

instance (k : Key) : Decidable (special k) := inferInstanceAs (Decidable (_ ∨ _))

theorem resolveEntries_keys (res d r : Def) (h : resolveEntries res d = .ok r) :
    ∀ k, k ∈ r.keys → k ∈ d.keys := by
  induction d generalizing r with
  | nil => simp [resolveEntries] at h; subst h; simp
  | leaf k a rest ih =>
    simp only [resolveEntries] at h
    rcases hr : resolveEntries res rest with e | r'
    · rw [hr] at h; cases h
    · rw [hr] at h
      simp only at h
      split at h
      · cases h; intro j hj; simp [keys, ih _ hr j hj]
      · cases h; intro j hj; simp [keys] at hj ⊢; exact hj.imp id (ih _ hr j)
  | sub k d rest _ ih =>
    simp only [resolveEntries] at h
    split at h
    · intro j hj; simp [keys, ih _ h j hj]
    · split at h
      · cases h
      · split at h
        · cases h
        · split at h
          · cases h
          · rcases hr : resolveEntries res rest with e | r'
            · rw [hr] at h; cases h
            · rw [hr] at h; cases h
              intro j hj; simp [keys] at hj ⊢; exact hj.imp id (ih _ hr j)

theorem resolveEntries_get1 (res d r : Def) (hd : d.WF) (h : resolveEntries res d = .ok r) (k : Key) :
    (special k → r.get1 k = none) ∧
    (¬ special k →
      (d.get1 k = none → r.get1 k = none) ∧
      (∀ a, d.get1 k = some (.leaf a) → r.get1 k = some (.leaf a)) ∧
      (∀ e, d.get1 k = some (.dict e) → ∃ l e', resolveEntries res e = .ok l ∧
        wrapSection res e l = .ok e' ∧ r.get1 k = some (.dict e'))) := by
  induction d generalizing r with
  | nil => simp [resolveEntries] at h; subst h; simp [get1]
  | leaf k' a rest ih =>
    simp only [resolveEntries] at h
    rcases hr : resolveEntries res rest with e | r'
    · rw [hr] at h; cases h
    · rw [hr] at h
      simp only at h
      obtain ⟨i1, i2⟩ := ih r' hd.2 hr
      split at h
      · rename_i hsp
        cases h
        refine ⟨i1, fun hk => ?_⟩
        have hne : k' ≠ k := by rintro rfl; exact hk hsp
        simpa [get1, hne] using i2 hk
      · rename_i hsp
        cases h
        by_cases hk : k' = k
        · subst hk
          exact ⟨fun h => absurd h hsp, fun _ => by simp [get1]⟩
        · refine ⟨fun h => ?_, fun h => ?_⟩
          · simpa [get1, hk] using i1 h
          · simpa [get1, hk] using i2 h
  | sub k' d rest ihd ih =>
    simp only [resolveEntries] at h
    split at h
    · rename_i hsp
      obtain ⟨i1, i2⟩ := ih r hd.2.2 h
      refine ⟨i1, fun hk => ?_⟩
      have hne : k' ≠ k := by rintro rfl; exact hk hsp
      simpa [get1, hne] using i2 hk
    · rename_i hsp
      split at h
      · cases h
      · rcases hl : resolveEntries res d with e | l
        · rw [hl] at h; cases h
        · rw [hl] at h
          simp only at h
          rcases hws : wrapSection res d l with e | d'
          · rw [hws] at h; cases h
          · rw [hws] at h
            simp only at h
            rcases hr : resolveEntries res rest with e | r'
            · rw [hr] at h; cases h
            · rw [hr] at h; cases h
              obtain ⟨i1, i2⟩ := ih r' hd.2.2 hr
              by_cases hk : k' = k
              · subst hk
                refine ⟨fun h => absurd h hsp, fun _ => ?_⟩
                simp only [get1, if_true]
                refine ⟨by simp, by simp, ?_⟩
                intro e he
                cases he
                exact ⟨l, d', hl, hws, rfl⟩
              · refine ⟨fun h => ?_, fun h => ?_⟩
                · simpa [get1, hk] using i1 h
                · simpa [get1, hk] using i2 h

theorem wrap_spec {res sec l r : Def} (h : wrapSection res sec l = .ok r) :
    ∃ t, calledTemplate res sec = .ok t ∧ t.union l true = .ok r := by
  unfold wrapSection at h
  rcases hc : calledTemplate res sec with e | t
  · rw [hc] at h; cases h
  · rw [hc] at h; exact ⟨t, rfl, h⟩

/-- A section's template is one of the resolved templates, or empty. -/
theorem called_spec {res sec t : Def} (h : calledTemplate res sec = .ok t) :
    (sec.get1 callKey = none ∧ t = .nil) ∨
    ∃ n, sec.get1 callKey = some (.leaf (some (.str n))) ∧ res.get1 n = some (.dict t) := by
  unfold calledTemplate at h
  rcases hc : sec.get1 callKey with _ | (x | e)
  · simp only [hc] at h; cases h; exact Or.inl ⟨rfl, rfl⟩
  · match x, hc, h with
    | none, hc, h => simp [hc] at h
    | some (.int i), hc, h => simp [hc] at h
    | some (.bool i), hc, h => simp [hc] at h
    | some (.list i), hc, h => simp [hc] at h
    | some (.other i), hc, h => simp [hc] at h
    | some (.str n), hc, h =>
      simp only [hc] at h
      rcases hr : res.get1 n with _ | (y | r)
      · simp [hr] at h
      · simp [hr] at h
      · simp only [hr] at h; cases h
        exact Or.inr ⟨n, rfl, hr⟩
  · simp [hc] at h

def ResWF (res : Def) : Prop := ∀ n r, res.get1 n = some (.dict r) → r.WF

theorem called_WF {res sec t : Def} (hres : ResWF res) (h : calledTemplate res sec = .ok t) : t.WF := by
  rcases called_spec h with ⟨_, rfl⟩ | ⟨n, _, h2⟩
  · trivial
  · exact hres n t h2

theorem resolveEntries_WF (res d r : Def) (hres : ResWF res) (hd : d.WF)
    (h : resolveEntries res d = .ok r) : r.WF := by
  induction d generalizing r with
  | nil => simp [resolveEntries] at h; subst h; trivial
  | leaf k' a rest ih =>
    simp only [resolveEntries] at h
    rcases hr : resolveEntries res rest with e | r'
    · rw [hr] at h; cases h
    · rw [hr] at h
      simp only at h
      split at h
      · cases h; exact ih _ hd.2 hr
      · cases h
        exact ⟨fun hk => hd.1 (resolveEntries_keys _ _ _ hr _ hk), ih _ hd.2 hr⟩
  | sub k' d rest ihd ih =>
    simp only [resolveEntries] at h
    split at h
    · exact ih _ hd.2.2 h
    · split at h
      · cases h
      · rcases hl : resolveEntries res d with e | l
        · rw [hl] at h; cases h
        · rw [hl] at h
          simp only at h
          rcases hws : wrapSection res d l with e | d'
          · rw [hws] at h; cases h
          · rw [hws] at h
            simp only at h
            rcases hr : resolveEntries res rest with e | r'
            · rw [hr] at h; cases h
            · rw [hr] at h; cases h
              obtain ⟨t, hc, hu⟩ := wrap_spec hws
              refine ⟨fun hk => hd.1 (resolveEntries_keys _ _ _ hr _ hk), ?_, ih _ hd.2.2 hr⟩
              exact WF_union _ _ _ _ (called_WF hres hc) (ihd _ hd.2.1 hl) hu

/-! ### The chain of bodies, read off -/

theorem foldChain_spec (bs : List Def) (hw : ∀ b ∈ bs, b.WF)
    (hp : bs.Pairwise (fun near far => FitsOn near far)) :
    ∃ r, foldChain bs = .ok r ∧ r.WF ∧
      (∀ p a, r.lookup p = some (.leaf a) → ∃ b ∈ bs, b.lookup p = some (.leaf a)) ∧
      (∀ pre b post p a, bs = pre ++ b :: post → (∀ c ∈ pre, c.Silent p) →
        b.LeafAt p (.leaf (some a)) → r.lookup p = some (.leaf (some a))) ∧
      (∀ p, p ≠ [] → (∀ b ∈ bs, b.Silent p) → r.lookup p = none) := by
  induction bs with
  | nil =>
    refine ⟨.nil, rfl, trivial, ?_, ?_, ?_⟩
    · intro p a h
      exfalso
      cases p with
      | nil => simp at h
      | cons => rw [lookup_emptyDict _ (by simp)] at h; cases h
    · intro pre b post p a h
      simp at h
    · intro p hp0 _
      exact lookup_emptyDict p hp0
  | cons b bs ih =>
    rw [List.pairwise_cons] at hp
    obtain ⟨inh, h1, hwi, h2, h3, h4⟩ := ih (fun x hx => hw x (by simp [hx])) hp.2
    have hclear : ∀ p v, b.LeafAt p v → inh.Clear p := by
      rintro p v hpv q hq hne ⟨a, ha⟩
      obtain ⟨c, hc, hca⟩ := h2 q _ ha
      exact hp.1 c hc p v hpv q hq hne ⟨a, hca⟩
    obtain ⟨r, hr, hwr, hm, hf⟩ := union_ok true inh b hwi (hw b (by simp)) hclear (by simp)
    refine ⟨r, by simp [foldChain, h1, hr], hwr, ?_, ?_, ?_⟩
    · intro p a ha
      rcases union_origin inh b r (hw b (by simp)) hm hf p a ha with h | h
      · obtain ⟨c, hc, hca⟩ := h2 p a h
        exact ⟨c, by simp [hc], hca⟩
      · exact ⟨b, by simp, h.2.1⟩
    · intro pre c post p a heq hs hl
      cases pre with
      | nil =>
        simp at heq
        obtain ⟨rfl, rfl⟩ := heq
        rw [hm p _ hl]; rfl
      | cons c' pre =>
        simp at heq
        obtain ⟨rfl, rfl⟩ := heq
        rw [hf p (hs b (by simp))]
        exact h3 pre c post p a rfl (fun x hx => hs x (by simp [hx])) hl
    · intro p hp0 hs
      rw [hf p (hs b (by simp))]
      exact h4 p hp0 (fun x hx => hs x (by simp [hx]))

theorem foldChain_WF (bs : List Def) (hw : ∀ b ∈ bs, b.WF) (r : Def) (h : foldChain bs = .ok r) :
    r.WF := by
  induction bs generalizing r with
  | nil => simp [foldChain] at h; subst h; trivial
  | cons b bs ih =>
    simp only [foldChain] at h
    rcases hf : foldChain bs with e | inh
    · rw [hf] at h; cases h
    · rw [hf] at h
      exact WF_union _ _ _ _ (ih (fun x hx => hw x (by simp [hx])) _ hf) (hw b (by simp)) h

theorem foldChain_noKey (bs : List Def) (hw : ∀ b ∈ bs, b.WF) (k : Key) (hk : ∀ b ∈ bs, NoKey k b)
    (r : Def) (h : foldChain bs = .ok r) : NoKey k r := by
  induction bs generalizing r with
  | nil =>
    simp [foldChain] at h; subst h
    intro p hp
    apply lookup_emptyDict; rintro rfl; simp at hp
  | cons b bs ih =>
    simp only [foldChain] at h
    rcases hf : foldChain bs with e | inh
    · rw [hf] at h; cases h
    · rw [hf] at h
      exact union_noKey _ _ _ _ (hw b (by simp)) k h
        (ih (fun x hx => hw x (by simp [hx])) (fun x hx => hk x (by simp [hx])) _ hf) (hk b (by simp))

theorem chain_bodies {raw : Def} {n : Key} {bs : List Def} (h : Chain raw n bs) :
    ∀ b ∈ bs, ∃ m body, raw.get1 m = some (.dict body) ∧ b = body.del1 "template" := by
  induction h with
  | last h1 _ =>
    intro b hb
    simp at hb
    rw [lookup_single] at h1
    exact ⟨_, _, h1, hb⟩
  | step h1 _ _ ih =>
    intro b hb
    simp at hb
    rcases hb with rfl | hb
    · rw [lookup_single] at h1
      exact ⟨_, _, h1, rfl⟩
    · exact ih b hb

theorem chain_WF {raw : Def} (hraw : raw.WF) {n : Key} {bs : List Def} (h : Chain raw n bs) :
    ∀ b ∈ bs, b.WF := by
  intro b hb
  obtain ⟨m, body, h1, rfl⟩ := chain_bodies h b hb
  have : (Val.dict body : Val Scalar).WF := WF_get1 hraw h1
  exact WF_del1 this

/-! ### Values of the resolved definition -/

/-- The template called by every section (at `s`) has no scalar above a leaf of the resolved
section. -/
def Fitting (res data : Def) : Prop :=
  ∀ s sec l t, (∀ k ∈ s, ¬ special k) → data.lookup s = some (.dict sec) →
    resolveEntries res sec = .ok l → calledTemplate res sec = .ok t → FitsOn l t

theorem Fitting.below {res data e : Def} (h : Fitting res data) {k : Key} (hk : ¬ special k)
    (hg : data.get1 k = some (.dict e)) : Fitting res e := by
  intro s sec l t hs hl h1 h2
  refine h (k :: s) sec l t ?_ ?_ h1 h2
  · intro j hj; simp at hj; rcases hj with rfl | hj
    · exact hk
    · exact hs j hj
  · rw [lookup_cons, hg]; exact hl

theorem wrap_leaf {res sec l r : Def} (hres : ResWF res) (hl : l.WF)
    (hfit : ∀ t, calledTemplate res sec = .ok t → FitsOn l t)
    (h : wrapSection res sec l = .ok r) (p : Path) (a : Scalar)
    (hp : l.lookup p = some (.leaf (some a))) : r.lookup p = some (.leaf (some a)) := by
  obtain ⟨t, hc, hu⟩ := wrap_spec h
  obtain ⟨r', hr', _, hm, _⟩ := union_ok true t l (called_WF hres hc) hl (hfit t hc) (by simp)
  rw [hu] at hr'; cases hr'
  rw [hm p _ (leafAt_scalar hp)]; rfl

/-- A scalar of a section, resolved on its own, is found at the same place of the resolved
whole. -/
theorem resolve_path (res : Def) (hres : ResWF res) (s : Path) (d l : Def) (hd : d.WF)
    (hl : resolveEntries res d = .ok l) (hfit : Fitting res d)
    (hs : ∀ k ∈ s, ¬ special k) (hs0 : s ≠ []) (sec : Def) (hsec : d.lookup s = some (.dict sec)) :
    ∃ ls sec', resolveEntries res sec = .ok ls ∧ wrapSection res sec ls = .ok sec' ∧
      ∀ p a, sec'.lookup p = some (.leaf (some a)) → l.lookup (s ++ p) = some (.leaf (some a)) := by
  induction s generalizing d l with
  | nil => exact absurd rfl hs0
  | cons k s ih =>
    have hk : ¬ special k := hs k (by simp)
    have hget := (resolveEntries_get1 res d l hd hl k).2 hk
    rw [lookup_cons] at hsec
    rcases hg : d.get1 k with _ | (x | e)
    · rw [hg] at hsec; simp at hsec
    · rw [hg] at hsec
      cases s <;> simp [Val.lookup] at hsec
    · rw [hg] at hsec
      simp only [Option.bind_some, Val.lookup] at hsec
      obtain ⟨le, e', h1, h2, h3⟩ := hget.2.2 e hg
      have hwe : e.WF := WF_get1 hd hg
      by_cases hs' : s = []
      · subst hs'
        simp at hsec
        subst hsec
        refine ⟨le, e', h1, h2, ?_⟩
        intro p a hp
        simp only [List.cons_append, List.nil_append]
        rw [lookup_cons, h3]
        exact hp
      · obtain ⟨ls, sec', g1, g2, g3⟩ := ih e le hwe h1 (hfit.below hk hg)
          (fun j hj => hs j (by simp [hj])) hs' hsec
        refine ⟨ls, sec', g1, g2, ?_⟩
        intro p a hp
        simp only [List.cons_append]
        rw [lookup_cons, h3]
        exact wrap_leaf hres (resolveEntries_WF res e le hres hwe h1)
          (fun t ht => hfit [k] e le t (by simpa using hk) (by rw [lookup_single]; exact hg) h1 ht)
          h2 _ a (g3 p a hp)

/-- Local scalars are kept. -/
theorem resolve_local (res : Def) (hres : ResWF res) (q : Path) (d l : Def) (hd : d.WF)
    (hl : resolveEntries res d = .ok l) (hfit : Fitting res d)
    (hq : ∀ k ∈ q, ¬ special k) (a : Scalar) (h : d.lookup q = some (.leaf (some a))) :
    l.lookup q = some (.leaf (some a)) := by
  induction q generalizing d l with
  | nil => simp at h
  | cons k s ih =>
    have hk : ¬ special k := hq k (by simp)
    have hget := (resolveEntries_get1 res d l hd hl k).2 hk
    rw [lookup_cons] at h ⊢
    rcases hg : d.get1 k with _ | (x | e)
    · rw [hg] at h; simp at h
    · rw [hg] at h
      rw [hget.2.1 x hg]
      exact h
    · rw [hg] at h
      simp only [Option.bind_some, Val.lookup] at h
      obtain ⟨le, e', h1, h2, h3⟩ := hget.2.2 e hg
      have hwe : e.WF := WF_get1 hd hg
      rw [h3]
      simp only [Option.bind_some, Val.lookup]
      exact wrap_leaf hres (resolveEntries_WF res e le hres hwe h1)
        (fun t ht => hfit [k] e le t (by simpa using hk) (by rw [lookup_single]; exact hg) h1 ht)
        h2 _ a (ih e le hwe h1 (hfit.below hk hg) (fun j hj => hq j (by simp [hj])) h)

/-- No `template`/`templates` key is left if the resolved templates contain none. -/
theorem resolve_noKey (res : Def) (hres : ResWF res) (c : Key) (hc : special c)
    (hno : ∀ n r, res.get1 n = some (.dict r) → NoKey c r) (p : Path) (d l : Def) (hd : d.WF)
    (hl : resolveEntries res d = .ok l) (hp : c ∈ p) : l.lookup p = none := by
  induction p generalizing d l with
  | nil => simp at hp
  | cons k ks ih =>
    have hget := resolveEntries_get1 res d l hd hl k
    rw [lookup_cons]
    by_cases hk : special k
    · rw [hget.1 hk]; rfl
    · have hck : c ∈ ks := by
        simp at hp
        rcases hp with rfl | h
        · exact absurd hc hk
        · exact h
      rcases hg : d.get1 k with _ | (x | e)
      · rw [(hget.2 hk).1 hg]; rfl
      · rw [(hget.2 hk).2.1 x hg]
        cases ks with
        | nil => simp at hck
        | cons => simp [Val.lookup]
      · obtain ⟨le, e', h1, h2, h3⟩ := (hget.2 hk).2.2 e hg
        have hwe : e.WF := WF_get1 hd hg
        rw [h3]
        simp only [Option.bind_some, Val.lookup]
        obtain ⟨t, ht, hu⟩ := wrap_spec h2
        rcases hlk : e'.lookup ks with _ | w
        · rfl
        · exfalso
          rcases union_mem true t le e' (resolveEntries_WF res e le hres hwe h1) hu ks w hlk with
            ⟨w', h'⟩ | ⟨w', h'⟩
          · have : NoKey c t := by
              rcases called_spec ht with ⟨_, rfl⟩ | ⟨n, _, h4⟩
              · intro q hq; apply lookup_emptyDict; rintro rfl; simp at hq
              · exact hno n t h4
            rw [this ks hck] at h'; cases h'
          · rw [ih e le hwe h1 hck] at h'; cases h'

/-! ### Deciding `Fitting` on concrete definitions -/

def fitHereB (res sec : Def) : Bool :=
  match resolveEntries res sec, calledTemplate res sec with
  | .ok l, .ok t => l.keysNested.all t.clearB
  | _, _ => true

def fittingB (res : Def) : Def → Bool
  | .nil => true
  | .leaf _ _ rest => fittingB res rest
  | .sub k d rest => (decide (special k) || (fitHereB res d && fittingB res d)) && fittingB res rest

theorem fittingB_get1 {res d e : Def} {k : Key} (h : fittingB res d = true) (hk : ¬ special k)
    (hg : d.get1 k = some (.dict e)) : fitHereB res e = true ∧ fittingB res e = true := by
  induction d with
  | nil => simp [get1] at hg
  | leaf k' a rest ih =>
    simp only [get1] at hg
    split at hg
    · cases hg
    · exact ih h hg
  | sub k' d rest _ ih =>
    simp only [get1] at hg
    simp only [fittingB, Bool.and_eq_true] at h
    split at hg
    · rename_i hkk; subst hkk; cases hg
      simpa [hk] using h.1
    · exact ih h.2 hg

theorem fitHere_of_B {res sec l t : Def} (hres : ResWF res) (hw : sec.WF) (h : fitHereB res sec = true)
    (hl : resolveEntries res sec = .ok l) (ht : calledTemplate res sec = .ok t) : FitsOn l t := by
  simp only [fitHereB, hl, ht, List.all_eq_true] at h
  intro p v hp
  exact clear_of_clearB t p (h p ((mem_keysNested l (resolveEntries_WF res sec l hres hw hl) p).2 ⟨v, hp⟩))

theorem fitting_of_B {res d : Def} (hres : ResWF res) (hw : d.WF) (h0 : fitHereB res d = true)
    (h : fittingB res d = true) : Fitting res d := by
  intro s
  induction s generalizing d with
  | nil =>
    intro sec l t _ hsec hl ht
    simp at hsec; subst hsec
    exact fitHere_of_B hres hw h0 hl ht
  | cons k s ih =>
    intro sec l t hs hsec hl ht
    rw [lookup_cons] at hsec
    rcases hg : d.get1 k with _ | (x | e)
    · rw [hg] at hsec; simp at hsec
    · rw [hg] at hsec; cases s <;> simp [Val.lookup] at hsec
    · rw [hg] at hsec
      obtain ⟨h1, h2⟩ := fittingB_get1 h (hs k (by simp)) hg
      exact ih (WF_get1 hw hg) h1 h2 sec l t (fun j hj => hs j (by simp [hj])) hsec hl ht

theorem resWF_of {res : Def} (h : res.WF) : ResWF res := fun _ _ hg => WF_get1 h hg

end ModelDefinition
end Calliope
