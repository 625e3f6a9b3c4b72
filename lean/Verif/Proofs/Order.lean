import Verif.Proofs.Assemble
import Verif.Spec.Order

/-!
# Proofs: the order of components
-/

namespace Calliope
namespace Assemble

open Grid Expr Build BaseMath Infix Expand

variable {V : Type} {s s' t u : State V}

theorem sameBut_refl (S : String → Prop) (s : State V) : SameBut S s s where
  dims := rfl
  coords := rfl
  config := rfl
  matrix := rfl
  arith := rfl
  input _ _ := rfl
  result _ _ := rfl
  number _ _ := rfl
  sums _ _ := rfl
  ecoords := rfl
  isDim := rfl
  period := rfl
  op := rfl
  neg := rfl
  truthy := rfl
  comp _ _ := rfl
  lookup _ _ := rfl
  carrier _ _ := rfl

/-- Nothing differs. -/
theorem sameBut_eq (h : SameBut (fun _ => False) s s') : s = s' := by
  obtain ⟨W, E⟩ := s
  obtain ⟨W', E'⟩ := s'
  obtain ⟨h1, h2, h3, h4, h5, h6, h7, h8, h9, h10, h11, h12, h13, h14, h15, h16, h17, h18⟩ := h
  have h6 := funext (fun n => h6 n id)
  have h7 := funext (fun n => h7 n id)
  have h8 := funext (fun n => h8 n id)
  have h9 := funext (fun n => h9 n id)
  have h16 := funext (fun n => h16 n id)
  have h17 := funext (fun n => h17 n id)
  have h18 := funext (fun n => h18 n id)
  congr
  · cases W; cases W'; simp_all
  · cases E; cases E'; simp_all

section Items

variable {α : Type} {name : α → String} {uses : α → List String} {default : α → Option V}
  {make : State V → α → Except Err (Arr (Option V))}

/-- One more item, made in the present state. -/
def step (name : α → String) (default : α → Option V) (make : State V → α → Except Err (Arr (Option V)))
    (s : State V) (a : α) : Except Err (State V) :=
  match make s a with
  | .error e => .error e
  | .ok b => .ok (s.put (name a) b (default a))

/-- Names of items. -/
def Named (name : α → String) (l : List α) (n : String) : Prop := ∃ a ∈ l, name a = n

theorem named_mem {l : List α} {n : String} : Named name l n ↔ n ∈ l.map name := by simp [Named]

/-- An item is as it is made in a state. -/
def Made (name : α → String) (default : α → Option V) (make : State V → α → Except Err (Arr (Option V)))
    (t : State V) (a : α) : Prop :=
  ∃ b, make t a = .ok b ∧ t.E.comp (name a) = some ⟨b, default a⟩ ∧
    t.W.result (name a) = some (map Option.isSome b)

theorem SameBut.trans {S : String → Prop} (h : SameBut S s t) (h' : SameBut S t u) : SameBut S s u where
  dims := h.dims.trans h'.dims
  coords := h.coords.trans h'.coords
  config := h.config.trans h'.config
  matrix := h.matrix.trans h'.matrix
  arith := h.arith.trans h'.arith
  input n hn := (h.input n hn).trans (h'.input n hn)
  result n hn := (h.result n hn).trans (h'.result n hn)
  number n hn := (h.number n hn).trans (h'.number n hn)
  sums n hn := (h.sums n hn).trans (h'.sums n hn)
  ecoords := h.ecoords.trans h'.ecoords
  isDim := h.isDim.trans h'.isDim
  period := h.period.trans h'.period
  op := h.op.trans h'.op
  neg := h.neg.trans h'.neg
  truthy := h.truthy.trans h'.truthy
  comp n hn := (h.comp n hn).trans (h'.comp n hn)
  lookup n hn := (h.lookup n hn).trans (h'.lookup n hn)
  carrier n hn := (h.carrier n hn).trans (h'.carrier n hn)

theorem SameBut.mono {S T : String → Prop} (h : SameBut S s t) (hST : ∀ n, S n → T n) : SameBut T s t :=
  { h with
    input := fun n hn => h.input n (fun e => hn (hST n e))
    result := fun n hn => h.result n (fun e => hn (hST n e))
    number := fun n hn => h.number n (fun e => hn (hST n e))
    sums := fun n hn => h.sums n (fun e => hn (hST n e))
    comp := fun n hn => h.comp n (fun e => hn (hST n e))
    lookup := fun n hn => h.lookup n (fun e => hn (hST n e))
    carrier := fun f hn => h.carrier f (fun e => hn (hST _ e)) }

/-- What differs between two states are components and results only. -/
structure SameInputs (s t : State V) : Prop where
  input : s.W.input = t.W.input
  number : s.W.number = t.W.number
  sums : s.W.sums = t.W.sums
  lookup : s.E.lookup = t.E.lookup
  carrier : s.E.carrier = t.E.carrier

theorem SameInputs.trans (h : SameInputs s t) (h' : SameInputs t u) : SameInputs s u :=
  ⟨h.1.trans h'.1, h.2.trans h'.2, h.3.trans h'.3, h.4.trans h'.4, h.5.trans h'.5⟩

theorem sameInputs_put (s : State V) (n : String) (a : Arr (Option V)) (d : Option V) : SameInputs s (s.put n a d) :=
  ⟨rfl, rfl, rfl, rfl, rfl⟩

theorem sameBut_put (s : State V) (n : String) (a : Arr (Option V)) (d : Option V) :
    SameBut (fun m => m = n) s (s.put n a d) :=
  { sameBut_refl (fun m => m = n) s with
    result := fun m hm => by
      have hm : ¬m = n := hm
      simp [State.put, hm]
    comp := fun m hm => by
      have hm : ¬m = n := hm
      simp [State.put, hm] }

/-- After a well ordered list is added, every item is as it would be made in the state at the end. -/
theorem addAll_made (hf : ∀ {S : String → Prop} {s s' : State V}, SameBut S s s' → ∀ a, Clear S (uses a) →
      make s a = make s' a) : ∀ (l : List α) {s t : State V}, WellOrdered name uses l → (l.map name).Nodup →
    addAll (step name default make) s l = .ok t →
      SameBut (Named name l) s t ∧ SameInputs s t ∧ ∀ a ∈ l, Made name default make t a
  | [], s, t, _, _, h => by
    simp only [addAll, Except.ok.injEq] at h
    subst h
    exact ⟨sameBut_refl _ _, ⟨rfl, rfl, rfl, rfl, rfl⟩, by simp⟩
  | a :: l, s, t, hw, hd, h => by
    simp only [addAll] at h
    split at h
    · cases h
    rename_i s1 hs1
    simp only [step] at hs1
    split at hs1
    · cases hs1
    rename_i b hb
    simp only [Except.ok.injEq] at hs1
    simp only [List.map_cons, List.nodup_cons] at hd
    obtain ⟨h1, h2, h3⟩ := addAll_made hf l hw.2 hd.2 h
    have hput : SameBut (Named name (a :: l)) s s1 :=
      hs1 ▸ (sameBut_put s (name a) b (default a)).mono (fun n hn => ⟨a, List.mem_cons_self, hn.symm⟩)
    have hall : SameBut (Named name (a :: l)) s t := hput.trans (h1.mono (fun n ⟨c, hc, hcn⟩ =>
      ⟨c, List.mem_cons_of_mem _ hc, hcn⟩))
    refine ⟨hall, (hs1 ▸ sameInputs_put s (name a) b (default a)).trans h2, ?_⟩
    intro c hc
    rcases List.mem_cons.1 hc with rfl | hc
    · have hn : ¬Named name l (name c) := by
        rw [named_mem]
        exact hd.1
      refine ⟨b, ?_, ?_, ?_⟩
      · rw [← hb]
        refine (hf hall c ?_).symm
        rintro n hn ⟨d, hdm, rfl⟩
        exact hw.1 d hdm hn
      · rw [← h1.comp _ hn, ← hs1]
        simp [State.put]
      · rw [← h1.result _ hn, ← hs1]
        simp [State.put]
    · exact h3 c hc

/-- If every item is as it is made in `t`, adding the items in any well ordered way leads to `t`. -/
theorem addAll_reaches (hf : ∀ {S : String → Prop} {s s' : State V}, SameBut S s s' → ∀ a, Clear S (uses a) →
      make s a = make s' a) : ∀ (l : List α) {s t : State V}, WellOrdered name uses l → (l.map name).Nodup →
    SameBut (Named name l) s t → SameInputs s t → (∀ a ∈ l, Made name default make t a) →
      addAll (step name default make) s l = .ok t
  | [], s, t, _, _, h, hi, _ => by
    simp only [addAll, Except.ok.injEq]
    exact sameBut_eq (h.mono (by rintro n ⟨a, ha, _⟩; cases ha))
  | a :: l, s, t, hw, hd, h, hi, hm => by
    simp only [List.map_cons, List.nodup_cons] at hd
    obtain ⟨b, hb, hc, hr⟩ := hm a List.mem_cons_self
    have hmake : make s a = .ok b := by
      rw [← hb]
      refine hf h a ?_
      rintro n hn ⟨d, hdm, rfl⟩
      exact hw.1 d hdm hn
    simp only [addAll, step, hmake]
    refine addAll_reaches hf l hw.2 hd.2 ?_ ?_ (fun c hc => hm c (List.mem_cons_of_mem _ hc))
    · have key : ∀ n, ¬Named name l n → n ≠ name a → ¬Named name (a :: l) n := by
        rintro n h1 h2 ⟨c, hc, rfl⟩
        rcases List.mem_cons.1 hc with rfl | hc
        · exact h2 rfl
        · exact h1 ⟨c, hc, rfl⟩
      refine { dims := h.dims, coords := h.coords, config := h.config, matrix := h.matrix, arith := h.arith,
               ecoords := h.ecoords, isDim := h.isDim, period := h.period, op := h.op, neg := h.neg,
               truthy := h.truthy, input := fun n _ => congrFun hi.input n, number := fun n _ => congrFun hi.number n,
               sums := fun n _ => congrFun hi.sums n, lookup := fun n _ => congrFun hi.lookup n,
               carrier := fun n _ => congrFun hi.carrier n, result := ?_, comp := ?_ }
      · intro n hn
        by_cases hna : n = name a
        · subst hna
          simp [State.put, hr]
        · simp only [State.put, hna, if_false]
          exact h.result n (key n hn hna)
      · intro n hn
        by_cases hna : n = name a
        · subst hna
          simp [State.put, hc]
        · simp only [State.put, hna, if_false]
          exact h.comp n (key n hn hna)
    · exact ⟨hi.1, hi.2, hi.3, hi.4, hi.5⟩

/-- Two well ordered ways to add the same items lead to the same state. -/
theorem addAll_perm (hf : ∀ {S : String → Prop} {s s' : State V}, SameBut S s s' → ∀ a, Clear S (uses a) →
      make s a = make s' a) {l l' : List α} (hp : l.Perm l') (hw : WellOrdered name uses l)
    (hw' : WellOrdered name uses l') (hd : (l.map name).Nodup) (h : addAll (step name default make) s l = .ok t) :
    addAll (step name default make) s l' = .ok t := by
  obtain ⟨h1, h2, h3⟩ := addAll_made hf l hw hd h
  refine addAll_reaches hf l' hw' ((hp.map name).nodup_iff.1 hd) (h1.mono ?_) h2
    (fun a ha => h3 a (hp.mem_iff.2 ha))
  rintro n ⟨a, ha, rfl⟩
  exact ⟨a, hp.mem_iff.1 ha, rfl⟩

end Items

theorem keepAll_perm {α β : Type} {make : α → Except Err β} {l l' : List α} (hp : l.Perm l') :
    ∀ {bs : List β}, keepAll make l = .ok bs → ∃ bs', keepAll make l' = .ok bs' ∧ (l.zip bs).Perm (l'.zip bs') := by
  induction hp with
  | nil =>
    intro bs h
    exact ⟨bs, h, List.Perm.refl _⟩
  | cons a _ ih =>
    intro bs h
    simp only [keepAll] at h ⊢
    split at h
    · cases h
    rename_i b hb
    split at h
    · cases h
    rename_i cs hcs
    simp only [Except.ok.injEq] at h
    subst h
    obtain ⟨ds, hds, hperm⟩ := ih hcs
    exact ⟨b :: ds, by simp [hds], hperm.cons (a, b)⟩
  | swap a b l =>
    intro bs h
    simp only [keepAll] at h ⊢
    split at h
    · cases h
    rename_i x hx
    split at h
    · cases h
    rename_i ys hys
    split at hys
    · cases hys
    rename_i y hy
    split at hys
    · cases hys
    rename_i zs hzs
    simp only [Except.ok.injEq] at h hys
    subst h hys
    exact ⟨y :: x :: zs, by simp [hx], List.Perm.swap _ _ _⟩
  | trans _ _ ih1 ih2 =>
    intro bs h
    obtain ⟨b1, h1, p1⟩ := ih1 h
    obtain ⟨b2, h2, p2⟩ := ih2 h1
    exact ⟨b2, h2, p1.trans p2⟩

/-! ### Missing arrays -/

theorem compArr_exists {n : String} {a : Arr (Option V)} (h : compArr s.E n = .ok a) : Exists s n := by
  simp only [compArr] at h
  split at h
  · rename_i c hc
    exact .inl (by simp [hc])
  · split at h
    · rename_i hd
      exact .inr hd
    · cases h

mutual
theorem evalTree_exists : ∀ (t : Tree Where.Op Where.Leaf) (a : Arr Bool), Where.evalTree s.W t = .ok a →
    ∀ n ∈ Results t, (s.W.result n).isSome
  | .atom l, a, h, n, hn => by
    simp only [Results] at hn
    simp only [Where.evalTree] at h
    cases l with
    | result r =>
      simp only [ResultsLeaf, List.mem_singleton] at hn
      subst hn
      simp only [Where.evalLeaf] at h
      split at h
      · rename_i b hb
        simp [hb]
      · cases h
    | anyResult r over =>
      simp only [ResultsLeaf, List.mem_singleton] at hn
      subst hn
      simp only [Where.evalLeaf] at h
      split at h
      · rename_i b hb
        simp [hb]
      · cases h
    | _ => simp [ResultsLeaf] at hn
  | .pre o t, a, h, n, hn => by
    simp only [Results] at hn
    simp only [Where.evalTree] at h
    split at h
    · cases h
    · rename_i b hb
      exact evalTree_exists t b hb n hn
  | .chain t r, a, h, n, hn => by
    simp only [Results, List.mem_append] at hn
    simp only [Where.evalTree] at h
    split at h
    · cases h
    · rename_i b hb
      rcases hn with hn | hn
      · exact evalTree_exists t b hb n hn
      · exact evalTreeRest_exists r b a h n hn
theorem evalTreeRest_exists : ∀ (r : Rest Where.Op Where.Leaf) (acc a : Arr Bool),
    Where.evalRest s.W acc r = .ok a → ∀ n ∈ ResultsRest r, (s.W.result n).isSome
  | .one o t, acc, a, h, n, hn => by
    simp only [ResultsRest] at hn
    simp only [Where.evalRest] at h
    split at h
    · cases h
    · rename_i b hb
      exact evalTree_exists t b hb n hn
  | .more o t r, acc, a, h, n, hn => by
    simp only [ResultsRest, List.mem_append] at hn
    simp only [Where.evalRest] at h
    split at h
    · cases h
    · rename_i b hb
      rcases hn with hn | hn
      · exact evalTree_exists t b hb n hn
      · exact evalTreeRest_exists r _ a h n hn
end

variable [Field V]

mutual
theorem evalEx_exists {slices : String → Option SliceDef} {sub : Arr Bool → String → Res V} : ∀ (t : Ex V)
    (w : Arr Bool) (a : Arr (Option V)), evalEx s.E slices sub w t = .ok a → ∀ n ∈ Operands t, Exists s n
  | .num _, _, _, _, n, hn => by simp [Operands] at hn
  | .sub _, _, _, _, n, hn => by simp [Operands] at hn
  | .comp m, w, a, h, n, hn => by
    simp only [Operands, List.mem_singleton] at hn
    simp only [evalEx] at h
    exact hn ▸ compArr_exists h
  | .sliced m ss, w, a, h, n, hn => by
    simp only [Operands, List.mem_singleton] at hn
    simp only [evalEx] at h
    split at h
    · cases h
    · rename_i b hb
      exact hn ▸ compArr_exists hb
  | .sign o t, w, a, h, n, hn => by
    simp only [Operands] at hn
    simp only [evalEx] at h
    split at h
    · cases h
    · rename_i b hb
      exact evalEx_exists t w b hb n hn
  | .chain t r, w, a, h, n, hn => by
    simp only [Operands, List.mem_append] at hn
    simp only [evalEx] at h
    split at h
    · cases h
    · rename_i b hb
      rcases hn with hn | hn
      · exact evalEx_exists t w b hb n hn
      · exact evalRest_exists r w _ a h n hn
  | .sum t over, w, a, h, n, hn => by
    simp only [Operands] at hn
    simp only [evalEx] at h
    split at h
    · cases h
    · rename_i b hb
      exact evalEx_exists t w b hb n hn
  | .reduceCarrier t flow, w, a, h, n, hn => by
    simp only [Operands] at hn
    simp only [evalEx] at h
    split at h
    · cases h
    · rename_i b hb
      exact evalEx_exists t w b hb n hn
  | .cond t c, w, a, h, n, hn => by
    simp only [Operands, List.mem_append] at hn
    simp only [evalEx] at h
    split at h
    · cases h
    · rename_i b hb
      split at h
      · cases h
      · rename_i d hd
        rcases hn with hn | hn
        · exact evalEx_exists t w b hb n hn
        · exact evalEx_exists c w d hd n hn
  | .roll t shifts, w, a, h, n, hn => by
    simp only [Operands] at hn
    simp only [evalEx] at h
    split at h
    · cases h
    · rename_i b hb
      exact evalEx_exists t _ b hb n hn
  | .groupSum t g d, w, a, h, n, hn => by
    simp only [Operands] at hn
    simp only [evalEx] at h
    split at h
    · cases h
    · rename_i b hb
      exact evalEx_exists t _ b hb n hn
  | .groupDatetime t over group, w, a, h, n, hn => by
    simp only [Operands] at hn
    simp only [evalEx] at h
    split at h
    · cases h
    · rename_i b hb
      exact evalEx_exists t _ b hb n hn
  | .sumNextN t over k, w, a, h, n, hn => by
    simp only [Operands] at hn
    simp only [evalEx] at h
    split at h
    · cases h
    · rename_i b hb
      exact evalEx_exists t w b hb n hn
  | .select t ls, w, a, h, n, hn => by
    simp only [Operands] at hn
    simp only [evalEx] at h
    split at h
    · cases h
    · rename_i b hb
      exact evalEx_exists t w b hb n hn
theorem evalRest_exists {slices : String → Option SliceDef} {sub : Arr Bool → String → Res V} : ∀ (r : ExRest V)
    (w : Arr Bool) (acc a : Arr (Option V)), Expr.evalRest s.E slices sub w acc r = .ok a →
      ∀ n ∈ OperandsRest r, Exists s n
  | .one o t, w, acc, a, h, n, hn => by
    simp only [OperandsRest] at hn
    simp only [Expr.evalRest] at h
    split at h
    · cases h
    · rename_i b hb
      exact evalEx_exists t w b hb n hn
  | .more o t r, w, acc, a, h, n, hn => by
    simp only [OperandsRest, List.mem_append] at hn
    simp only [Expr.evalRest] at h
    split at h
    · cases h
    · rename_i b hb
      rcases hn with hn | hn
      · exact evalEx_exists t w b hb n hn
      · exact evalRest_exists r w _ a h n hn
end

end Assemble
end Calliope
