import Mathlib.Data.List.Nodup
import Mathlib.Algebra.BigOperators.Group.List.Lemmas
import Verif.Proofs.Grid
import Verif.Spec.Expr

/-!
# Points, cells and totals
-/

namespace Calliope
namespace Expr

open Grid

variable {V : Type}

theorem override_cons (ρ : Point) (d : String) (ds : List String) (l : Label) (g : List Label) :
    override ρ (d :: ds) (l :: g) = set (override ρ ds g) d l := by
  funext x
  unfold override set
  rw [List.zip_cons_cons, List.lookup_cons]
  by_cases h : x = d
  · subst h; simp
  · rw [beq_false_of_ne h, if_neg h]

theorem set_override (ρ : Point) (d : String) (l : Label) (ds : List String) (g : List Label)
    (hd : d ∉ ds) : set (override ρ ds g) d l = override (set ρ d l) ds g := by
  funext x
  unfold override set
  by_cases h : x = d
  · subst h
    have : (ds.zip g).lookup x = none := by
      rw [List.lookup_eq_none_iff]
      rintro ⟨a, b⟩ hp
      have := (List.of_mem_zip hp).1
      simp only [bne_iff_ne, ne_eq]
      intro he
      have he : x = a := he
      exact hd (he ▸ this)
    simp [this]
  · simp [h]

theorem set_comm (ρ : Point) {d e : String} (l m : Label) (h : d ≠ e) :
    set (set ρ d l) e m = set (set ρ e m) d l := by
  funext x
  unfold set
  by_cases h1 : x = d
  · subst h1; simp [h]
  · simp [h1]

@[simp] theorem set_same (ρ : Point) (d : String) (l : Label) : set ρ d l d = l := by simp [set]
theorem set_other (ρ : Point) {d x : String} (l : Label) (h : x ≠ d) : set ρ d l x = ρ x := by
  simp [set, h]
@[simp] theorem set_set (ρ : Point) (d : String) (l m : Label) : set (set ρ d l) d m = set ρ d m := by
  funext x; unfold set; by_cases h : x = d <;> simp [h]
@[simp] theorem set_self (ρ : Point) (d : String) : set ρ d (ρ d) = ρ := by
  funext x; unfold set; by_cases h : x = d <;> simp [h]

theorem points_eq (coords : String → List Label) : ∀ (ds : List String) (ρ : Point), ds.Nodup →
    points coords ds ρ = (cells coords ds).map (override ρ ds)
  | [], ρ, _ => by
      simp only [points, cells, List.map_cons, List.map_nil]
      congr 1
  | d :: ds, ρ, h => by
      rw [List.nodup_cons] at h
      simp only [points, cells, List.map_flatMap, List.map_map]
      congr 1
      funext l
      rw [points_eq coords ds _ h.2]
      apply List.map_congr_left
      intro g _
      show override (set ρ d l) ds g = override ρ (d :: ds) (l :: g)
      rw [override_cons, set_override _ _ _ _ _ h.1]

theorem flatMap_comm_perm {α β γ : Type} (f : α → β → List γ) : ∀ (as : List α) (bs : List β),
    (as.flatMap (fun a => bs.flatMap (fun b => f a b))).Perm
      (bs.flatMap (fun b => as.flatMap (fun a => f a b)))
  | [], bs => by simp
  | a :: as, bs => by
      simp only [List.flatMap_cons]
      refine (List.Perm.append_left _ (flatMap_comm_perm f as bs)).trans ?_
      induction bs with
      | nil => simp
      | cons b bs ih =>
        simp only [List.flatMap_cons]
        refine List.Perm.trans ?_ (List.Perm.append_left _ ih)
        simp only [List.append_assoc]
        refine List.Perm.append_left _ ?_
        rw [← List.append_assoc, ← List.append_assoc]
        exact List.Perm.append_right _ List.perm_append_comm

theorem points_perm (coords : String → List Label) {ds es : List String} (h : ds.Perm es) :
    ∀ (_ : ds.Nodup) (ρ : Point), (points coords ds ρ).Perm (points coords es ρ) := by
  induction h with
  | nil => intro _ ρ; exact List.Perm.refl _
  | cons d _ ih =>
    intro hn ρ
    rw [List.nodup_cons] at hn
    simp only [points]
    exact List.Perm.flatMap_left _ (fun l _ => ih hn.2 _)
  | swap d e l =>
    intro hn ρ
    simp only [List.nodup_cons, List.mem_cons, not_or] at hn
    simp only [points]
    refine (flatMap_comm_perm (fun a b => points coords l (set (set ρ e a) d b)) _ _).trans ?_
    apply List.Perm.of_eq
    congr 1
    funext b
    congr 1
    funext a
    rw [set_comm _ _ _ hn.1.1]
  | trans h1 _ ih1 ih2 =>
    intro hn ρ
    exact (ih1 hn ρ).trans (ih2 (h1.nodup_iff.1 hn) ρ)

theorem mem_points {coords : String → List Label} {ds : List String} (hn : ds.Nodup) {ρ σ : Point} :
    σ ∈ points coords ds ρ ↔ Along coords ds ρ σ := by
  rw [points_eq coords ds ρ hn, List.mem_map]
  constructor
  · rintro ⟨g, hg, rfl⟩
    exact along_override hg
  · intro h
    exact ⟨ds.map σ, mem_cells h.2, override_of_along h⟩

/-- Every point is listed once. -/
theorem points_nodup (coords : String → List Label) (hc : ∀ d, (coords d).Nodup) :
    ∀ (ds : List String) (ρ : Point), ds.Nodup → (points coords ds ρ).Nodup
  | [], ρ, _ => by simp [points]
  | d :: ds, ρ, h => by
      rw [List.nodup_cons] at h
      simp only [points]
      rw [List.nodup_flatMap]
      refine ⟨fun l _ => points_nodup coords hc ds _ h.2, ?_⟩
      refine List.Pairwise.imp ?_ (hc d)
      intro a b hab σ h1 h2
      have h1 := ((mem_points h.2).1 h1).1 d h.1
      have h2 := ((mem_points h.2).1 h2).1 d h.1
      rw [set_same] at h1 h2
      exact hab (h1.symm.trans h2)

theorem map_override (ρ : Point) : ∀ (ds : List String) (g : List Label), ds.Nodup →
    g.length = ds.length → ds.map (override ρ ds g) = g
  | [], [], _, _ => rfl
  | [], _ :: _, _, h => by simp at h
  | _ :: _, [], _, h => by simp at h
  | d :: ds, l :: g, hn, h => by
      rw [List.nodup_cons] at hn
      rw [override_cons, List.map_cons, set_same]
      congr 1
      rw [← map_override ρ ds g hn.2 (by simpa using h)]
      apply List.map_congr_left
      intro x hx
      rw [map_override ρ ds g hn.2 (by simpa using h)]
      exact set_other _ _ (fun he => hn.1 (he ▸ hx))

/-! ### Totals -/

theorem filterMap_sum [AddCommMonoid V] : ∀ (l : List (Option V)),
    (l.filterMap id).sum = (l.map (fun v => v.getD 0)).sum
  | [] => rfl
  | none :: l => by
      have := filterMap_sum l
      simp only [List.filterMap_cons, id_eq, List.map_cons, Option.getD_none, List.sum_cons, zero_add]
      exact this
  | some v :: l => by
      have := filterMap_sum l
      simp only [List.filterMap_cons, id_eq, List.map_cons, Option.getD_some, List.sum_cons]
      exact congrArg (v + ·) this

theorem sumPresent_eq [AddCommMonoid V] (l : List (Option V)) : sumPresent l = total l := by
  unfold sumPresent total
  by_cases h : ∀ v ∈ l, v = none
  · rw [if_pos h, if_pos]
    rw [List.all_eq_true]
    intro v hv
    simp [h v hv]
  · rw [if_neg h, if_neg, filterMap_sum]
    intro h2
    rw [List.all_eq_true] at h2
    exact h (fun v hv => by simpa using h2 v hv)

theorem total_perm [AddCommMonoid V] {l m : List (Option V)} (h : l.Perm m) : total l = total m := by
  unfold total
  have : (∀ v ∈ l, v = none) ↔ ∀ v ∈ m, v = none :=
    ⟨fun H v hv => H v (h.mem_iff.2 hv), fun H v hv => H v (h.mem_iff.1 hv)⟩
  by_cases h1 : ∀ v ∈ l, v = none
  · rw [if_pos h1, if_pos (this.1 h1)]
  · rw [if_neg h1, if_neg (fun h2 => h1 (this.2 h2)), (h.map _).sum_eq]

end Expr
end Calliope
