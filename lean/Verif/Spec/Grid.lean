import Verif.Model.Grid

namespace Calliope
namespace Grid

/-- `ρ` with the labels `g` for the dimensions `ds`. -/
def override (ρ : String → Label) (ds : List String) (g : List Label) : String → Label :=
  fun d => ((ds.zip g).lookup d).getD (ρ d)

/-- `σ` differs from `ρ` only along the dimensions `ds`, where it has labels of the dimension. -/
def Along (coords : String → List Label) (ds : List String) (ρ σ : String → Label) : Prop :=
  (∀ d, d ∉ ds → σ d = ρ d) ∧ ∀ d ∈ ds, σ d ∈ coords d

end Grid
end Calliope
