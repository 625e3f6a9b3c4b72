import Verif.Model.Config
import Verif.Spec.AttrDict

/-!
# Specification vocabulary for configuration objects
-/

namespace Calliope
namespace Config
variable {τ : Type}

/-- The object found by following a path of attribute names / keys. -/
def sub : Cfg τ → List String → Option (Cfg τ)
  | c, [] => some c
  | .base _ fs, k :: p => match fs.lookup k with | some c => sub c p | none => none
  | .dictM _ es, k :: p => match es.lookup k with | some c => sub c p | none => none
  | .leaf _ _, _ :: _ => none
  | .listM _ _, _ :: _ => none

def IsDictM (c : Cfg τ) : Prop := ∃ t es, c = .dictM t es

/-- `x` is the sub-object of `c` at path `p`, where no dict model is a direct entry of another
dict model (no schema of calliope has that) and plain entries of a dict model carry the entry
annotation of that dict model. -/
inductive At : Cfg τ → List String → Cfg τ → Prop
  | here (c) : At c [] c
  | base {t fs k c p x} : fs.lookup k = some c → At c p x → At (.base t fs) (k :: p) x
  | dict {t es k c p x} : es.lookup k = some c → ¬ IsDictM c → (∀ t' v, c = .leaf t' v → t' = t) →
      At c p x → At (.dictM t es) (k :: p) x

/-- A setting: something that is replaced as a whole. -/
def IsSetting : Cfg τ → Prop
  | .leaf _ _ => True
  | .listM _ _ => True
  | _ => False

/-- The value a setting takes when the update gives `w` for it: unchanged when `w` equals the
present value, else `w` validated against the setting's annotation. -/
def given (P : Pydantic τ) : Cfg τ → Val Scalar → Except Err (Cfg τ)
  | .leaf t v, w => if P.same v w then .ok (.leaf t v) else P.build t w
  | .listM t _, w => match P.buildList t w with
    | .ok v => .ok (.listM t v)
    | .error e => .error e
  | c, _ => .ok c

end Config
end Calliope
