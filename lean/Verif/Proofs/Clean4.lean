import Verif.Proofs.Clean3

/-! # Proofs about cleaning the inputs: colours and distances -/

namespace Calliope
namespace Clean

open Grid ModelData

variable {V : Type}

theorem cycled_lookup {α : Type} (pal : List α) : ∀ (techs : List Label) (k i : Nat) (t : Label), techs.Nodup →
    techs[i]? = some t → (cycled pal k techs).lookup t = some pal[(k + i) % pal.length]?
  | [], _, _, _, _, h => by simp at h
  | x :: xs, k, 0, t, _, h => by
      simp only [List.getElem?_cons_zero, Option.some.injEq] at h
      subst h
      simp [cycled]
  | x :: xs, k, i + 1, t, hn, h => by
      simp only [List.getElem?_cons_succ] at h
      have hne : t ≠ x := by
        rintro rfl
        exact (List.nodup_cons.1 hn).1 (List.mem_of_getElem? h)
      rw [cycled, List.lookup_cons, beq_false_of_ne hne]
      have := cycled_lookup pal xs (k + 1) i t (List.nodup_cons.1 hn).2 h
      rw [show k + 1 + i = k + (i + 1) from by omega] at this
      exact this

theorem addColors_at {pal : List String} {techs : List Label} (hn : techs.Nodup)
    (color : Option (Arr (Option (ModelData.Scalar V)))) {i : Nat} {ρ : String → Label}
    (h : techs[i]? = some (ρ "techs")) :
    (addColors pal techs color).at ρ =
      (color.bind (fun a => a.at ρ)).or (pal[i % pal.length]?.map (fun s => .str s)) := by
  have hf : (((cycled pal 0 techs).lookup (ρ "techs")).join.map (fun s => ModelData.Scalar.str (V := V) s)) =
      pal[i % pal.length]?.map (fun s => .str s) := by
    rw [cycled_lookup pal techs 0 i _ hn h]
    simp
  unfold addColors
  rcases color with _ | a
  · simp only [Option.bind_none, Option.none_or]
    exact hf
  · simp only [at_zip, Option.bind_some]
    congr 1

/-! ### Distances -/

theorem mem_nodesOf {coords : String → List Label} {dm : Arr Bool} {t n : Label} :
    n ∈ nodesOf coords dm t ↔ n ∈ coords "nodes" ∧
      ∃ σ, Along coords (dm.dims.filter (fun d => ["carriers"].contains d)) (fun d => if d = "techs" then t else n) σ ∧
        dm.at σ = true := by
  unfold nodesOf
  rw [List.mem_filter, at_any]

theorem linkDistances_ok {coords : String → List Label} {dm : Arr Bool} {dist : Label → Label → V}
    {link : Label → Bool} : ∀ {techs : List Label} {out : List (Label × V)},
    linkDistances coords dm dist link techs = .ok out → ∀ t,
      (t ∈ techs → link t = true → ∃ a b, nodesOf coords dm t = [a, b] ∧ out.lookup t = some (dist a b)) ∧
      (¬ (t ∈ techs ∧ link t = true) → out.lookup t = none)
  | [], out, h, t => by
      cases h
      exact ⟨fun h => (by cases h), fun _ => rfl⟩
  | x :: xs, out, h, t => by
      simp only [linkDistances] at h
      by_cases hl : link x = true
      · rw [if_pos hl] at h
        split at h
        · rename_i a b hab
          rcases hr : linkDistances coords dm dist link xs with e | rest
          · rw [hr] at h; cases h
          · rw [hr] at h
            cases h
            obtain ⟨h1, h2⟩ := linkDistances_ok hr t
            rw [List.lookup_cons]
            by_cases he : t = x
            · subst he
              refine ⟨fun _ _ => ⟨a, b, hab, by simp⟩, fun hc => ?_⟩
              exact absurd ⟨List.mem_cons_self .., hl⟩ hc
            · rw [beq_false_of_ne he]
              refine ⟨fun hm hlt => h1 ?_ hlt, fun hc => h2 ?_⟩
              · rcases List.mem_cons.1 hm with hm | hm
                · exact absurd hm he
                · exact hm
              · rintro ⟨hm, hlt⟩
                exact hc ⟨List.mem_cons_of_mem _ hm, hlt⟩
        · cases h
      · rw [if_neg hl] at h
        obtain ⟨h1, h2⟩ := linkDistances_ok h t
        refine ⟨fun hm hlt => h1 ?_ hlt, fun hc => h2 ?_⟩
        · rcases List.mem_cons.1 hm with hm | hm
          · subst hm; exact absurd hlt hl
          · exact hm
        · rintro ⟨hm, hlt⟩
          exact hc ⟨List.mem_cons_of_mem _ hm, hlt⟩

theorem linkDistances_error {coords : String → List Label} {dm : Arr Bool} {dist : Label → Label → V}
    {link : Label → Bool} : ∀ (techs : List Label),
    (∃ out, linkDistances coords dm dist link techs = .ok out) ↔
      ∀ t ∈ techs, link t = true → (nodesOf coords dm t).length = 2
  | [] => by simp [linkDistances]
  | x :: xs => by
      have ih := linkDistances_error (coords := coords) (dm := dm) (dist := dist) (link := link) xs
      simp only [linkDistances, List.mem_cons, forall_eq_or_imp]
      by_cases hl : link x = true
      · rw [if_pos hl]
        split
        · rename_i a b hab
          rw [hab]
          simp only [List.length_cons, List.length_nil, implies_true, true_and]
          rw [← ih]
          rcases linkDistances coords dm dist link xs with e | rest
          · simp
          · simp
        · rename_i hne
          constructor
          · rintro ⟨out, h⟩; cases h
          · rintro ⟨h, _⟩
            obtain ⟨a, b, hab⟩ := List.length_eq_two.1 (h hl)
            exact absurd hab (hne a b)
      · rw [if_neg hl, ih]
        simp [hl]

end Clean
end Calliope
