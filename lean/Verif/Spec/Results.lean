import Verif.Model.Results

/-!
# What the results of a solve are compared with
-/

namespace Calliope
namespace Results

variable {A : Type}

/-- All components that a solution has values of, by name. -/
def Found.values (f : Found A) : List (String × A) := f.decisions ++ f.expressions ++ f.objectives

/-- Names of decision variables, global expressions and objectives are different (C32), and so are those of the
postprocessed arrays and of the shadow prices that are asked for. -/
structure Apart (post : List (String × A) → List (String × A)) (f : Found A) (asked : List String) : Prop where
  values : (f.values.map Prod.fst).Nodup
  prices : ∀ c ∈ asked, "shadow_price_" ++ c ∉ f.values.map Prod.fst
  postValues : ∀ r, ∀ n ∈ f.values.map Prod.fst, n ∉ (post r).map Prod.fst
  postPrices : ∀ r, ∀ c ∈ asked, "shadow_price_" ++ c ∉ (post r).map Prod.fst

end Results
end Calliope
