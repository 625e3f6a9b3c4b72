import Verif.Spec.Merge
import Verif.Proofs.MathText
import Mathlib.Data.List.Induction

/-!
# C116: math files, one over the other
-/

namespace Calliope
namespace Merge

open Grammar (Str)
open MathText (File Raw RawItem later putItem putRaw)

/-! ### One component over the other -/

theorem entry_putItem (k k' : Str) (v : List RawItem) (l : List (Str × List RawItem)) :
    entry k (putItem k' v l) = if k' = k then some v else entry k l := by
  induction l with
  | nil => simp [putItem, entry]
  | cons p l ih =>
    obtain ⟨k'', w⟩ := p
    by_cases h : k'' = k'
    · subst h
      by_cases h' : k'' = k <;> simp [putItem, entry, h']
    · by_cases h' : k'' = k
      · subst h'
        have : ¬ k' = k'' := fun e => h e.symm
        simp [putItem, entry, h, this]
      · simp [putItem, entry, h, h', ih]

theorem entry_none {k : Str} {l : List (Str × List RawItem)} (h : k ∉ l.map Prod.fst) : entry k l = none := by
  induction l with
  | nil => rfl
  | cons p l ih =>
    obtain ⟨k', v⟩ := p
    simp only [List.map_cons, List.mem_cons, not_or] at h
    have : ¬ k' = k := fun e => h.1 e.symm
    simp [entry, this, ih h.2]

theorem later_none {α : Type} (a : Option α) : later a none = a := rfl

theorem entry_foldl (k : Str) {b : List (Str × List RawItem)} (hb : (b.map Prod.fst).Nodup) :
    ∀ a, entry k (b.foldl (fun l p => putItem p.1 p.2 l) a) = later (entry k a) (entry k b) := by
  induction b with
  | nil => intro a; rfl
  | cons p b ih =>
    intro a
    obtain ⟨k', v⟩ := p
    simp only [List.map_cons, List.nodup_cons] at hb
    rw [List.foldl_cons, ih hb.2, entry_putItem]
    by_cases h : k' = k
    · subst h
      rw [entry_none hb.1]
      simp [entry, later]
    · simp [entry, h]

theorem putItem_mem {k : Str} {v : List RawItem} {l : List (Str × List RawItem)} {x : Str} :
    x ∈ (putItem k v l).map Prod.fst ↔ x = k ∨ x ∈ l.map Prod.fst := by
  induction l with
  | nil => simp [putItem]
  | cons p l ih =>
    obtain ⟨k', w⟩ := p
    by_cases h : k' = k
    · subst h
      simp [putItem]
    · simp only [putItem, h, if_false, List.map_cons, List.mem_cons, ih]
      tauto

theorem putItem_nodup {k : Str} {v : List RawItem} {l : List (Str × List RawItem)} (h : (l.map Prod.fst).Nodup) :
    ((putItem k v l).map Prod.fst).Nodup := by
  induction l with
  | nil => simp [putItem]
  | cons p l ih =>
    obtain ⟨k', w⟩ := p
    simp only [List.map_cons, List.nodup_cons] at h
    by_cases h' : k' = k
    · subst h'
      simpa [putItem] using h
    · simp only [putItem, h', if_false, List.map_cons, List.nodup_cons, putItem_mem]
      refine ⟨?_, ih h.2⟩
      rintro (e | e)
      · exact e.elim
      · exact h.1 e

theorem foldlItem_nodup {b : List (Str × List RawItem)} : ∀ {a : List (Str × List RawItem)}, (a.map Prod.fst).Nodup →
    ((b.foldl (fun l p => putItem p.1 p.2 l) a).map Prod.fst).Nodup := by
  induction b with
  | nil => exact fun h => h
  | cons p b ih => exact fun h => ih (putItem_nodup h)

theorem over_field {α : Type} {f : Raw → Option α} (hf : Field f) {a b : Raw} (hs : (b.subs.map Prod.fst).Nodup)
    (hl : (b.slices.map Prod.fst).Nodup) : f (a.over b) = later (f a) (f b) := by
  cases hf with
  | sub k => exact entry_foldl k hs a.subs
  | slice k => exact entry_foldl k hl a.slices
  | _ => rfl

/-! ### One group over the other -/

/-- What is found under a name. -/
def at' (n : Str) : List Raw → Option Raw
  | [] => none
  | r :: l => if r.name = n then some r else at' n l

theorem at_mem {n : Str} {l : List Raw} (hl : (l.map Raw.name).Nodup) {r : Raw} : at' n l = some r ↔ r ∈ l ∧ r.name = n := by
  induction l with
  | nil => simp [at']
  | cons a l ih =>
    simp only [List.map_cons, List.nodup_cons] at hl
    by_cases h : a.name = n
    · simp only [at', h, if_true, Option.some.injEq, List.mem_cons]
      constructor
      · rintro rfl; exact ⟨.inl rfl, h⟩
      · rintro ⟨rfl | hr, hn⟩
        · rfl
        · exact absurd (List.mem_map.2 ⟨r, hr, hn.trans h.symm⟩) hl.1
    · simp only [at', h, if_false, ih hl.2, List.mem_cons]
      constructor
      · rintro ⟨h1, h2⟩; exact ⟨.inr h1, h2⟩
      · rintro ⟨rfl | hr, hn⟩
        · exact absurd hn h
        · exact ⟨hr, hn⟩

theorem at_none {n : Str} {l : List Raw} : at' n l = none ↔ n ∉ l.map Raw.name := by
  induction l with
  | nil => simp [at']
  | cons a l ih =>
    by_cases h : a.name = n
    · simp [at', h]
    · have : ¬ n = a.name := fun e => h e.symm
      simp [at', h, ih, this]

theorem putRaw_names (r : Raw) (l : List Raw) :
    (putRaw r l).map Raw.name = if r.name ∈ l.map Raw.name then l.map Raw.name else l.map Raw.name ++ [r.name] := by
  induction l with
  | nil => simp [putRaw]
  | cons a l ih =>
    by_cases h : a.name = r.name
    · simp [putRaw, h, Raw.over]
    · have : ¬ r.name = a.name := fun e => h e.symm
      simp only [putRaw, h, if_false, List.map_cons, ih, List.mem_cons, this, false_or]
      split <;> simp

theorem at_putRaw (n : Str) (r : Raw) (l : List Raw) :
    at' n (putRaw r l) = if r.name = n then some (match at' n l with
      | some a => a.over r
      | none => r) else at' n l := by
  induction l with
  | nil => simp [putRaw, at']
  | cons a l ih =>
    by_cases h : a.name = r.name
    · by_cases h' : r.name = n
      · have : a.name = n := h.trans h'
        simp [putRaw, at', h, h', Raw.over]
      · simp [putRaw, at', h, h', Raw.over]
    · by_cases h' : r.name = n
      · have : ¬ a.name = n := fun e => h (e.trans h'.symm)
        rw [if_pos h'] at ih
        simp [putRaw, at', h', this, ih]
      · rw [if_neg h'] at ih
        simp [putRaw, at', h, h', ih]

theorem at_foldl (n : Str) {m : List Raw} (hm : (m.map Raw.name).Nodup) : ∀ l : List Raw,
    at' n (m.foldl (fun l r => putRaw r l) l) = match at' n l, at' n m with
      | a, none => a
      | none, some r => some r
      | some a, some r => some (a.over r) := by
  induction m with
  | nil => intro l; cases h : at' n l <;> simp [at', h]
  | cons r m ih =>
    intro l
    simp only [List.map_cons, List.nodup_cons] at hm
    rw [List.foldl_cons, ih hm.2, at_putRaw]
    by_cases h : r.name = n
    · have h1 : at' n m = none := at_none.2 (h ▸ hm.1)
      simp only [h, if_true, h1, at']
      cases at' n l <;> rfl
    · simp only [h, if_false, at']

theorem foldl_names (m : List Raw) : ∀ l : List Raw,
    (m.foldl (fun l r => putRaw r l) l).map Raw.name =
      m.foldl (fun ns r => if r.name ∈ ns then ns else ns ++ [r.name]) (l.map Raw.name) := by
  induction m with
  | nil => intro l; rfl
  | cons r m ih =>
    intro l
    rw [List.foldl_cons, ih, putRaw_names, List.foldl_cons]

theorem add_names (l : List Str) : ∀ ns : List Str, ns.Nodup →
    l.foldl (fun ns k => if k ∈ ns then ns else ns ++ [k]) ns = ns ++ (firsts l).filter (fun k => k ∉ ns) := by
  induction l with
  | nil => intro ns _; simp [firsts]
  | cons k l ih =>
    intro ns hns
    rw [List.foldl_cons]
    by_cases h : k ∈ ns
    · rw [if_pos h, ih ns hns, firsts, List.filter_cons, if_neg (by simpa using h), List.filter_filter]
      congr 1
      apply List.filter_congr
      intro x _
      by_cases hx : x ∈ ns
      · simp [hx]
      · have : x ≠ k := fun e => hx (e ▸ h)
        simp [hx, this]
    · rw [if_neg h, ih (ns ++ [k]) (by
        rw [List.nodup_append]
        refine ⟨hns, by simp, ?_⟩
        rintro a ha b hb rfl
        simp only [List.mem_singleton] at hb
        exact h (hb ▸ ha)), firsts, List.filter_cons, if_pos (by simpa using h), List.filter_filter, List.append_assoc]
      congr 1
      rw [List.singleton_append]
      congr 1
      apply List.filter_congr
      intro x _
      by_cases hx : x ∈ ns <;> by_cases hk : x = k <;> simp [hx, hk]

theorem firsts_sub {l : List Str} {x : Str} : x ∈ firsts l ↔ x ∈ l := by
  induction l with
  | nil => simp [firsts]
  | cons a l ih =>
    simp only [firsts, List.mem_cons, List.mem_filter, ih, decide_eq_true_eq]
    by_cases h : x = a <;> simp [h]

theorem firsts_nodup (l : List Str) : (firsts l).Nodup := by
  induction l with
  | nil => simp [firsts]
  | cons a l ih =>
    rw [firsts, List.nodup_cons]
    exact ⟨by simp, ih.filter _⟩

/-! ### One file over the other -/

theorem over_components (a b : File) (g : Group) :
    components (a.over b) g = (components b g).foldl (fun l r => putRaw r l) (components a g) := by
  cases g <;> rfl

/-- The files of these names. -/
theorem merge_files {data : Str → Option File} : ∀ {ns : List Str} {a m : File}, MathText.merge data a ns = some m →
    ∃ fs, List.Forall₂ (fun n f => data n = some f) ns fs ∧ m = fs.foldl File.over a
  | [], a, m, h => ⟨[], .nil, by simpa [MathText.merge] using h.symm⟩
  | n :: ns, a, m, h => by
    unfold MathText.merge at h
    split at h
    · rename_i f hf
      obtain ⟨fs, h1, h2⟩ := merge_files h
      exact ⟨f :: fs, .cons hf h1, h2⟩
    · cases h

theorem files_merge {data : Str → Option File} : ∀ {ns : List Str} {fs : List File} {a : File},
    List.Forall₂ (fun n f => data n = some f) ns fs → MathText.merge data a ns = some (fs.foldl File.over a)
  | _, _, _, .nil => rfl
  | _, _, _, .cons h1 h2 => by
    unfold MathText.merge
    rw [h1]
    exact files_merge h2

theorem components_foldl_names (g : Group) (fs : List File) : ∀ a : File,
    (components (fs.foldl File.over a) g).map Raw.name =
      (fs.flatMap (fun F => (components F g).map Raw.name)).foldl (fun ns k => if k ∈ ns then ns else ns ++ [k])
        ((components a g).map Raw.name) := by
  induction fs with
  | nil => intro a; rfl
  | cons F fs ih =>
    intro a
    rw [List.foldl_cons, ih, over_components, foldl_names, List.flatMap_cons, List.foldl_append, List.foldl_map]

/-- The components of the math are those of the files, each where it is first. -/
theorem C116_names {data : Str → Option File} {ns : List Str} {m : File} (h : MathText.buildMath data ns = some m) :
    ∃ fs, List.Forall₂ (fun n f => data n = some f) ns fs ∧
      ∀ g, (components m g).map Raw.name = firsts (fs.flatMap (fun F => (components F g).map Raw.name)) := by
  unfold MathText.buildMath at h
  split at h
  · cases h
  · rename_i m' hm
    split at h
    · simp only [Option.some.injEq] at h
      subst h
      obtain ⟨fs, h1, h2⟩ := merge_files hm
      refine ⟨fs, h1, fun g => ?_⟩
      have h0 : components ({} : File) g = [] := by cases g <;> rfl
      rw [h2, components_foldl_names, h0, List.map_nil, add_names _ _ (by simp)]
      simp
    · cases h

theorem foldl_nodup (g : Group) (fs : List File) :
    ((components (fs.foldl File.over {}) g).map Raw.name).Nodup := by
  have h0 : components ({} : File) g = [] := by cases g <;> rfl
  rw [components_foldl_names, h0, List.map_nil, add_names _ _ (by simp)]
  simpa using firsts_nodup _

/-- What the math gives to a component, after one more file. -/
theorem gives_over {α : Type} {f : Raw → Option α} (hf : Field f) {fs : List File} {F : File} (hF : Proper F)
    (g : Group) (n : Str) (v : α) :
    Gives ((fs ++ [F]).foldl File.over {}) g n f v ↔
      Gives F g n f v ∨ (Gives (fs.foldl File.over {}) g n f v ∧ ∀ w, ¬ Gives F g n f w) := by
  have ha := foldl_nodup g fs
  have hb := foldl_nodup g (fs ++ [F])
  have key : ∀ {G : File}, ((components G g).map Raw.name).Nodup → ∀ w, Gives G g n f w ↔
      ∃ r, at' n (components G g) = some r ∧ f r = some w := by
    intro G hG w
    constructor
    · rintro ⟨r, hr, hn, hw⟩
      exact ⟨r, (at_mem hG).2 ⟨hr, hn⟩, hw⟩
    · rintro ⟨r, hr, hw⟩
      obtain ⟨h1, h2⟩ := (at_mem hG).1 hr
      exact ⟨r, h1, h2, hw⟩
  rw [key hb, key (hF.names g), key ha]
  simp only [key (hF.names g)]
  rw [List.foldl_append]
  simp only [List.foldl_cons, List.foldl_nil]
  rw [over_components, at_foldl n (hF.names g)]
  cases h1 : at' n (components F g) with
  | none => cases h2 : at' n (components (fs.foldl File.over {}) g) <;> simp
  | some r =>
    have hr := ((at_mem (hF.names g)).1 h1).1
    cases h2 : at' n (components (fs.foldl File.over {}) g) with
    | none => simp
    | some a =>
      have ho := over_field hf (a := a) (hF.subs g r hr) (hF.slices g r hr)
      simp only [Option.some.injEq, exists_eq_left', ho]
      cases h3 : f r with
      | none => simp [later]
      | some w => simp [later]

theorem last_snoc {α : Type} {f : Raw → Option α} {fs : List File} {F : File} {g : Group} {n : Str} {v : α} :
    Last (fs ++ [F]) g n f v ↔ Gives F g n f v ∨ (Last fs g n f v ∧ ∀ w, ¬ Gives F g n f w) := by
  constructor
  · rintro ⟨before, G, after, he, h1, h2⟩
    rcases List.eq_nil_or_concat after with rfl | ⟨after, H, rfl⟩
    · have := List.append_inj' he (by simp)
      simp only [List.cons.injEq, and_true] at this
      exact .inl (this.2 ▸ h1)
    · rw [List.concat_eq_append, ← List.cons_append, ← List.append_assoc] at he
      have := List.append_inj' he (by simp)
      simp only [List.cons.injEq, and_true] at this
      refine .inr ⟨⟨before, G, after, this.1, h1, fun K hK => h2 K (by simp [hK])⟩, ?_⟩
      exact this.2 ▸ h2 H (by simp)
  · rintro (h | ⟨⟨before, G, after, he, h1, h2⟩, h3⟩)
    · exact ⟨fs, F, [], rfl, h, by simp⟩
    · refine ⟨before, G, after ++ [F], by simp [he], h1, ?_⟩
      intro K hK
      simp only [List.mem_append, List.mem_singleton] at hK
      rcases hK with hK | rfl
      · exact h2 K hK
      · exact h3

theorem gives_last {α : Type} {f : Raw → Option α} (hf : Field f) (fs : List File) :
    (∀ F ∈ fs, Proper F) → ∀ (g : Group) (n : Str) (v : α),
    Gives (fs.foldl File.over {}) g n f v ↔ Last fs g n f v := by
  induction fs using List.reverseRecOn with
  | nil =>
    intro _ g n v
    constructor
    · rintro ⟨r, hr, _⟩
      cases g <;> cases hr
    · rintro ⟨before, F, after, he, _⟩
      simp at he
  | append_singleton fs F ih =>
    intro hp g n v
    rw [gives_over hf (hp F (by simp)), last_snoc, ih (fun G hG => hp G (by simp [hG])) g n v]

/-- What a component of the math consists of is what the last file gives that gives something. -/
theorem C116_last {data : Str → Option File} {ns : List Str} {m : File} (h : MathText.buildMath data ns = some m)
    {fs : List File} (hfs : List.Forall₂ (fun n f => data n = some f) ns fs) (hp : ∀ F ∈ fs, Proper F) {α : Type}
    {f : Raw → Option α} (hf : Field f) (g : Group) (n : Str) (v : α) : Gives m g n f v ↔ Last fs g n f v := by
  unfold MathText.buildMath at h
  rw [files_merge hfs] at h
  simp only at h
  split at h
  · simp only [Option.some.injEq] at h
    subst h
    exact gives_last hf fs hp g n v
  · cases h

/-! ### What is accepted -/

theorem distinct_iff : ∀ l : List (List Str), MathText.distinct l = true ↔
    l.Pairwise (fun a b => ∀ n ∈ a, n ∉ b)
  | [] => by simp [MathText.distinct]
  | a :: l => by
    simp only [MathText.distinct, Bool.and_eq_true, List.all_eq_true, List.pairwise_cons, distinct_iff l,
      Bool.not_eq_true', List.contains_eq_mem, decide_eq_false_iff_not]
    constructor
    · rintro ⟨h1, h2⟩; exact ⟨fun b hb n hn => h1 n hn b hb, h2⟩
    · rintro ⟨h1, h2⟩; exact ⟨fun n hn b hb => h1 b hb n hn, h2⟩

/-- All groups. -/
def groups : List Group :=
  [.dimensions, .parameters, .lookups, .variables', .globalExpressions, .constraints, .objectives, .postprocessed, .checks]

theorem mem_groups (g : Group) : g ∈ groups := by cases g <;> simp [groups]

theorem groups_eq (m : File) : m.groups = groups.map (fun g => ((components m g).filter Raw.isActive).map Raw.name) := rfl

theorem active_iff (r : Raw) : r.isActive = true ↔ Active r := by
  unfold Raw.isActive Active
  cases r.active with
  | none => simp
  | some b => cases b <;> simp

theorem pairwise_groups {R : Group → Group → Prop} (hs : ∀ g h, R g h → R h g) :
    groups.Pairwise R ↔ ∀ g h, g ≠ h → R g h := by
  constructor
  · intro hp g h hn
    simp only [groups, List.pairwise_cons, List.mem_cons, List.not_mem_nil, or_false, forall_eq_or_imp, forall_eq,
      List.Pairwise.nil, and_true, IsEmpty.forall_iff, implies_true] at hp
    cases g <;> cases h <;> first | exact absurd rfl hn | tauto
  · intro hr
    have : groups.Pairwise (· ≠ ·) := by decide
    exact this.imp fun {a b} h => hr a b h

/-- Math is accepted exactly if no two active components of different groups have the same name, and every active global
expression, constraint, objective and postprocessed array has an equation. -/
theorem C116_accepted (m : File) : m.accepted = true ↔
    (∀ g h, g ≠ h → ∀ a ∈ components m g, ∀ b ∈ components m h, Active a → Active b → a.name ≠ b.name) ∧
    (∀ g ∈ [Group.globalExpressions, .constraints, .objectives, .postprocessed], ∀ r ∈ components m g, Active r →
      ∃ e es, r.equations = some (e :: es)) := by
  unfold File.accepted
  rw [Bool.and_eq_true, groups_eq, distinct_iff, List.pairwise_map, pairwise_groups]
  · refine and_congr ?_ ?_
    · constructor
      · rintro hd g h hn a ha b hb ha' hb' he
        refine hd g h hn a.name (List.mem_map.2 ⟨a, List.mem_filter.2 ⟨ha, (active_iff a).2 ha'⟩, rfl⟩) ?_
        exact he ▸ List.mem_map.2 ⟨b, List.mem_filter.2 ⟨hb, (active_iff b).2 hb'⟩, rfl⟩
      · rintro hd g h hn x hx hx'
        obtain ⟨a, ha, rfl⟩ := List.mem_map.1 hx
        obtain ⟨b, hb, hbe⟩ := List.mem_map.1 hx'
        obtain ⟨ha1, ha2⟩ := List.mem_filter.1 ha
        obtain ⟨hb1, hb2⟩ := List.mem_filter.1 hb
        exact hd g h hn a ha1 b hb1 ((active_iff a).1 ha2) ((active_iff b).1 hb2) hbe.symm
    · have key : ∀ r : Raw, r.complete = true ↔ (Active r → ∃ e es, r.equations = some (e :: es)) := by
        intro r
        rw [← active_iff]
        unfold Raw.complete
        cases hi : r.isActive with
        | false => simp
        | true =>
          cases he : r.equations with
          | none => simp
          | some l => cases l <;> simp
      simp only [List.all_eq_true, List.mem_append, key, List.mem_cons, List.not_mem_nil, or_false, forall_eq_or_imp,
        forall_eq, components]
      constructor
      · intro h
        exact ⟨fun r hr => h r (.inl (.inl (.inl hr))), fun r hr => h r (.inl (.inl (.inr hr))),
          fun r hr => h r (.inl (.inr hr)), fun r hr => h r (.inr hr)⟩
      · rintro ⟨h1, h2, h3, h4⟩ r (((hr | hr) | hr) | hr)
        · exact h1 r hr
        · exact h2 r hr
        · exact h3 r hr
        · exact h4 r hr
  · intro g h hr n hn hn'
    exact hr n hn' hn

/-- There is no math if a file is missing. -/
theorem C116_missing (data : Str → Option File) (ns : List Str) :
    MathText.merge data {} ns = none ↔ ∃ n ∈ ns, data n = none := by
  have : ∀ a, MathText.merge data a ns = none ↔ ∃ n ∈ ns, data n = none := by
    induction ns with
    | nil => intro a; simp [MathText.merge]
    | cons n ns ih =>
      intro a
      unfold MathText.merge
      cases h : data n with
      | none => simp [h]
      | some f => simp [h, ih]
  exact this {}

/-- Math that is made has this. -/
theorem C116_made {data : Str → Option File} {ns : List Str} {m : File} (h : MathText.buildMath data ns = some m) :
    (∀ g h, g ≠ h → ∀ a ∈ components m g, ∀ b ∈ components m h, Active a → Active b → a.name ≠ b.name) ∧
    (∀ g ∈ [Group.globalExpressions, .constraints, .objectives, .postprocessed], ∀ r ∈ components m g, Active r →
      ∃ e es, r.equations = some (e :: es)) := by
  unfold MathText.buildMath at h
  split at h
  · cases h
  · split at h
    · rename_i ha
      simp only [Option.some.injEq] at h
      exact h ▸ (C116_accepted _).1 ha
    · cases h

/-- No math is made exactly if a file is missing, or the files together are not accepted. -/
theorem C116_refused (data : Str → Option File) (ns : List Str) : MathText.buildMath data ns = none ↔
    (∃ n ∈ ns, data n = none) ∨ ∃ m, MathText.merge data {} ns = some m ∧
      ¬ ((∀ g h, g ≠ h → ∀ a ∈ components m g, ∀ b ∈ components m h, Active a → Active b → a.name ≠ b.name) ∧
        (∀ g ∈ [Group.globalExpressions, .constraints, .objectives, .postprocessed], ∀ r ∈ components m g, Active r →
          ∃ e es, r.equations = some (e :: es))) := by
  rw [← C116_missing]
  simp only [← C116_accepted]
  unfold MathText.buildMath
  cases h : MathText.merge data {} ns with
  | none => simp
  | some m => simp

/-! ### What reaches the backend -/

theorem insertRaw_pairwise (r : Raw) : ∀ l : List Raw, l.Pairwise (fun a b => a.position ≤ b.position) →
    (MathText.insertRaw r l).Pairwise (fun a b => a.position ≤ b.position)
  | [], _ => by simp [MathText.insertRaw]
  | a :: l, h => by
    rw [List.pairwise_cons] at h
    unfold MathText.insertRaw
    split
    · rename_i hlt
      refine List.pairwise_cons.2 ⟨fun b hb => ?_, List.pairwise_cons.2 h⟩
      rcases List.mem_cons.1 hb with rfl | hb
      · exact le_of_lt hlt
      · exact le_trans (le_of_lt hlt) (h.1 b hb)
    · rename_i hlt
      refine List.pairwise_cons.2 ⟨fun b hb => ?_, insertRaw_pairwise r l h.2⟩
      rcases MathText.insertRaw_mem.1 hb with rfl | hb
      · exact not_lt.1 hlt
      · exact h.1 b hb

theorem insertRaw_filter (r : Raw) (k : Int) : ∀ l : List Raw, l.Pairwise (fun a b => a.position ≤ b.position) →
    (MathText.insertRaw r l).filter (fun r => r.position = k) =
      l.filter (fun r => r.position = k) ++ [r].filter (fun r => r.position = k)
  | [], _ => by simp [MathText.insertRaw]
  | a :: l, h => by
    rw [List.pairwise_cons] at h
    unfold MathText.insertRaw
    split
    · rename_i hlt
      by_cases hk : r.position = k
      · have h1 : (a :: l).filter (fun r => decide (r.position = k)) = [] := by
          rw [List.filter_eq_nil_iff]
          intro b hb
          rw [decide_eq_true_eq]
          intro e
          rcases List.mem_cons.1 hb with rfl | hb
          · omega
          · have := h.1 b hb
            omega
        rw [List.filter_cons, h1]
        simp [hk]
      · rw [List.filter_cons]
        simp [hk]
    · rw [List.filter_cons, insertRaw_filter r k l h.2]
      by_cases hk : a.position = k <;> simp [hk]

theorem ordered_arranged (l : List Raw) : (MathText.ordered l).Pairwise (fun a b => a.position ≤ b.position) ∧
    ∀ k : Int, (MathText.ordered l).filter (fun r => r.position = k) = l.filter (fun r => r.position = k) := by
  have key : ∀ (l s : List Raw), s.Pairwise (fun a b => a.position ≤ b.position) →
      (l.foldl (fun s r => MathText.insertRaw r s) s).Pairwise (fun a b => a.position ≤ b.position) ∧
      ∀ k : Int, (l.foldl (fun s r => MathText.insertRaw r s) s).filter (fun r => r.position = k) =
        s.filter (fun r => r.position = k) ++ l.filter (fun r => r.position = k) := by
    intro l
    induction l with
    | nil => exact fun s hs => ⟨hs, fun k => by simp⟩
    | cons r l ih =>
      intro s hs
      obtain ⟨h1, h2⟩ := ih _ (insertRaw_pairwise r s hs)
      refine ⟨h1, fun k => ?_⟩
      show (l.foldl (fun s r => MathText.insertRaw r s) (MathText.insertRaw r s)).filter _ = _
      rw [h2 k, insertRaw_filter r k s hs, List.append_assoc, ← List.filter_append]
      rfl
  obtain ⟨h1, h2⟩ := key l [] List.Pairwise.nil
  exact ⟨h1, fun k => (h2 k).trans (List.nil_append _)⟩

theorem readList_all {α : Type} {f : Raw → Option α} : ∀ {l : List Raw} {xs : List α}, MathText.readList f l = some xs →
    List.Forall₂ (fun r x => f r = some x) l xs
  | [], xs, h => by
    simp only [MathText.readList, Option.some.injEq] at h
    subst h
    exact .nil
  | r :: l, xs, h => by
    simp only [MathText.readList] at h
    split at h
    · rename_i h1 h2
      simp only [Option.some.injEq] at h
      subst h
      exact .cons h1 (readList_all h2)
    · cases h

theorem readGroup_by {α : Type} {f : Raw → Option α} {l : List Raw} {xs : List α} (h : MathText.readGroup f l = some xs) :
    ReadBy f l xs := by
  obtain ⟨h1, h2⟩ := ordered_arranged l
  refine ⟨_, ⟨h1.sublist List.filter_sublist, fun k => ?_⟩, readList_all h⟩
  rw [List.filter_filter]
  have := congrArg (List.filter Raw.isActive) (h2 k)
  rw [List.filter_filter, List.filter_filter] at this
  refine Eq.trans ?_ (this.trans ?_)
  · congr 1
    funext r
    exact Bool.and_comm _ _
  · congr 1
    funext r
    have := active_iff r
    unfold Active at this
    by_cases ha : r.isActive = true
    · simp [ha, this.1 ha]
    · have hn : r.active = some false := by
        by_contra hc
        exact ha (this.2 hc)
      simp [ha, hn]

/-- C116: the backend gets exactly the active components of each group, by their `order`, and those of the same order as
they are in the math. -/
theorem C116_added {m : File} {M : MathText.Math} (h : m.read = some M) :
    ReadBy (MathText.readVariable m.kinds) m.vars M.vars ∧
    ReadBy (MathText.readExpression m.kinds) m.globals M.globals ∧
    ReadBy (MathText.readConstraint m.kinds) m.constraints M.constraints ∧
    ReadBy (MathText.readExpression m.kinds) m.objectives M.objectives ∧
    ReadBy (MathText.readExpression m.postKinds) m.postprocessed M.postprocessed ∧
    ReadBy (MathText.readCheck m.kinds) m.checks M.checks := by
  unfold File.read at h
  split at h
  · rename_i h1 h2 h3 h4 h5 h6
    simp only [Option.some.injEq] at h
    subst h
    exact ⟨readGroup_by h1, readGroup_by h2, readGroup_by h3, readGroup_by h4, readGroup_by h5, readGroup_by h6⟩
  · cases h

/-- C116: math of a mode counts over the base math, and extra math over both; of extra math, the last that says something
counts. -/
theorem C116_mode {data : Str → Option File} (hp : ∀ n F, data n = some F → Proper F) {mode : Str} {extra : List Str}
    {m : File} (h : MathText.buildMath data (MathText.priority mode extra) = some m) :
    ∃ b xs, data (chars! "base") = some b ∧ List.Forall₂ (fun n f => data n = some f) extra xs ∧
      (mode = chars! "base" → ∀ {α : Type} {f : Raw → Option α}, Field f → ∀ g n v,
        Gives m g n f v ↔ Last (b :: xs) g n f v) ∧
      (mode ≠ chars! "base" → ∃ k, data mode = some k ∧ ∀ {α : Type} {f : Raw → Option α}, Field f → ∀ g n v,
        Gives m g n f v ↔ Last (b :: k :: xs) g n f v) := by
  obtain ⟨fs, hfs, -⟩ := C116_names h
  have hall : ∀ {ns : List Str} {fs : List File}, List.Forall₂ (fun n f => data n = some f) ns fs → ∀ F ∈ fs, Proper F := by
    intro ns fs hfs
    induction hfs with
    | nil => simp
    | cons h1 _ ih =>
      intro F hF
      rcases List.mem_cons.1 hF with rfl | hF
      · exact hp _ _ h1
      · exact ih F hF
  have hlast := fun {α : Type} {f : Raw → Option α} (hf : Field f) g n v => C116_last h hfs (hall hfs) hf g n v
  by_cases hm : mode = chars! "base"
  · simp only [MathText.priority, hm, ne_eq, not_true_eq_false, if_false, List.nil_append] at hfs
    cases hfs with
    | cons hb hx => exact ⟨_, _, hb, hx, fun _ => hlast, fun hn => absurd hm hn⟩
  · simp only [MathText.priority, hm, ne_eq, not_false_eq_true, if_true, List.cons_append, List.nil_append] at hfs
    cases hfs with
    | cons hb hx =>
      cases hx with
      | cons hk hx => exact ⟨_, _, hb, hx, fun hn => absurd hn hm, fun _ => ⟨_, hk, hlast⟩⟩


/-! ### Examples -/

namespace Demo

/-- A constraint in two files. -/
def one : File where
  vars := [{ name := chars! "a" }, { name := chars! "b", lower := some (chars! "0"), upper := some (chars! "inf") }]
  constraints := [{ name := chars! "c", equations := some [⟨none, chars! "a<=b"⟩], subs := [(chars! "x", [⟨none, chars! "1"⟩])] }]

def two : File where
  vars := [{ name := chars! "b", lower := some (chars! "1") }, { name := chars! "d" }]
  constraints := [{ name := chars! "e", equations := some [⟨none, chars! "a>=d"⟩] },
    { name := chars! "c", active := some false }]

def data (n : Str) : Option File :=
  if n = chars! "base" then some one else if n = chars! "mine" then some two else none

def ns : List Str := MathText.priority (chars! "base") [chars! "mine"]

theorem made : (MathText.buildMath data ns).isSome = true := by decide +kernel

theorem found : List.Forall₂ (fun n f => data n = some f) ns [one, two] :=
  .cons rfl (.cons rfl .nil)

theorem properOne : Proper one := by
  constructor <;> intro g <;> cases g <;> decide +kernel

theorem properTwo : Proper two := by
  constructor <;> intro g <;> cases g <;> decide +kernel

example : ∃ m, MathText.buildMath data ns = some m ∧ Gives m .variables' (chars! "b") Raw.lower (chars! "1") ∧
    Gives m .variables' (chars! "b") Raw.upper (chars! "inf") ∧
    Gives m .constraints (chars! "c") Raw.active false ∧
    Gives m .constraints (chars! "c") (fun r => entry (chars! "x") r.subs) [⟨none, chars! "1"⟩] ∧
    (components m .constraints).map Raw.name = [chars! "c", chars! "e"] := by
  obtain ⟨m, hm⟩ := Option.isSome_iff_exists.1 made
  have hp : ∀ F ∈ [one, two], Proper F := by simp [properOne, properTwo]
  refine ⟨m, hm, ?_, ?_, ?_, ?_, ?_⟩
  · exact (C116_last hm found hp .lower _ _ _).2 ⟨[one], two, [], rfl, ⟨_, List.mem_cons_self, rfl, rfl⟩, by simp⟩
  · refine (C116_last hm found hp .upper _ _ _).2
      ⟨[], one, [two], rfl, ⟨_, List.mem_cons_of_mem _ List.mem_cons_self, rfl, rfl⟩, ?_⟩
    simp only [List.mem_singleton, forall_eq]
    rintro w ⟨r, hr, -, hw⟩
    simp only [components, two, List.mem_cons, List.not_mem_nil, or_false] at hr
    rcases hr with rfl | rfl <;> cases hw
  · exact (C116_last hm found hp .active _ _ _).2
      ⟨[one], two, [], rfl, ⟨_, List.mem_cons_of_mem _ List.mem_cons_self, rfl, rfl⟩, by simp⟩
  · refine (C116_last hm found hp (.sub _) _ _ _).2 ⟨[], one, [two], rfl, ⟨_, List.mem_cons_self, rfl, rfl⟩, ?_⟩
    simp only [List.mem_singleton, forall_eq]
    rintro w ⟨r, hr, -, hw⟩
    simp only [components, two, List.mem_cons, List.not_mem_nil, or_false] at hr
    rcases hr with rfl | rfl <;> cases hw
  · obtain ⟨fs, h1, h2⟩ := C116_names hm
    have : fs = [one, two] := by
      cases h1 with
      | cons ha h1 => cases h1 with
        | cons hb h1 =>
          cases h1
          cases ha
          cases hb
          rfl
    rw [h2, this]
    decide +kernel

/-- Extra math over the math of a mode over the base math. -/
def modeFile : File where
  vars := [{ name := chars! "b", lower := some (chars! "7"), upper := some (chars! "9") }]

def modes (n : Str) : Option File :=
  if n = chars! "base" then some one else if n = chars! "mine" then some two else
  if n = chars! "operate" then some modeFile else none

theorem properModes (n : Str) (F : File) (h : modes n = some F) : Proper F := by
  unfold modes at h
  split at h
  · cases h
    exact properOne
  · split at h
    · cases h
      exact properTwo
    · split at h
      · cases h
        constructor <;> intro g <;> cases g <;> decide +kernel
      · cases h

/-- The lower bound is that of the extra math, the upper bound that of the mode. -/
example : ∃ m, MathText.buildMath modes (MathText.priority (chars! "operate") [chars! "mine"]) = some m ∧
    Gives m .variables' (chars! "b") Raw.lower (chars! "1") ∧ Gives m .variables' (chars! "b") Raw.upper (chars! "9") := by
  obtain ⟨m, hm⟩ := Option.isSome_iff_exists.1
    (by decide +kernel : (MathText.buildMath modes (MathText.priority (chars! "operate") [chars! "mine"])).isSome = true)
  obtain ⟨b, xs, hb, hx, -, h⟩ := C116_mode properModes hm
  obtain ⟨k, hk, h⟩ := h (by decide)
  cases hb
  cases hk
  cases hx with
  | cons hx h' =>
    cases h'
    cases hx
    refine ⟨m, hm, (h .lower _ _ _).2 ⟨[one, modeFile], two, [], rfl, ⟨_, List.mem_cons_self, rfl, rfl⟩, by simp⟩,
      (h .upper _ _ _).2 ⟨[one], modeFile, [two], rfl, ⟨_, List.mem_cons_self, rfl, rfl⟩, ?_⟩⟩
    simp only [List.mem_singleton, forall_eq]
    rintro w ⟨r, hr, -, hw⟩
    simp only [components, two, List.mem_cons, List.not_mem_nil, or_false] at hr
    rcases hr with rfl | rfl <;> cases hw

/-- Expressions in another order, one of them not active, and an array that uses another one afterwards. -/
def mixed : File where
  parameters := [{ name := chars! "p" }]
  globals := [{ name := chars! "a", foreach := some [], equations := some [⟨none, chars! "1"⟩], order := some (chars! "1") },
    { name := chars! "b", foreach := some [], equations := some [⟨none, chars! "2"⟩] },
    { name := chars! "c", foreach := some [], equations := some [⟨none, chars! "3"⟩], active := some false },
    { name := chars! "d", foreach := some [], equations := some [⟨none, chars! "4"⟩] }]
  postprocessed := [{ name := chars! "x", foreach := some [], equations := some [⟨none, chars! "a + b"⟩] },
    { name := chars! "y", foreach := some [], equations := some [⟨none, chars! "2 * x"⟩] }]

/-- `b` and `d` come first, then `a`; `c` is left out. -/
example : mixed.read.map (fun M => (M.globals.map (fun c => c.defn.name), M.postprocessed.map (fun c => c.defn.name))) =
    some (["b", "d", "a"], ["x", "y"]) := by decide +kernel

example : ∃ M out, mixed.read = some M ∧ Arranged mixed.globals out ∧
    List.Forall₂ (fun r x => MathText.readExpression mixed.kinds r = some x) out M.globals := by
  obtain ⟨M, hM⟩ := Option.isSome_iff_exists.1 (by decide +kernel : mixed.read.isSome = true)
  obtain ⟨-, ⟨out, h1, h2⟩, -⟩ := C116_added hM
  exact ⟨M, out, hM, h1, h2⟩

/-- The same name for a variable and a constraint. -/
def clash : File where
  vars := [{ name := chars! "a" }]
  constraints := [{ name := chars! "a", equations := some [⟨none, chars! "a<=1"⟩] }]

example : MathText.buildMath (fun _ => some clash) ns = none := by
  refine (C116_refused _ _).2 (.inr ⟨(clash.over clash), rfl, ?_⟩)
  rintro ⟨h, -⟩
  exact h .variables' .constraints (by decide) _ List.mem_cons_self _ List.mem_cons_self
    (by unfold Active; decide) (by unfold Active; decide) rfl

example : MathText.buildMath data [chars! "base", chars! "other"] = none :=
  (C116_refused _ _).2 (.inl ⟨chars! "other", by simp, by decide +kernel⟩)

end Demo

end Merge
end Calliope
