import Verif.Basic

/-!
# Python dictionaries as lookup tables

Only `d[k]`, `k in d` and `d[k] = v` are modelled; iteration order is not (where the code iterates
over a dict the model uses its own list).
-/
namespace Verif

/-- A Python `dict`: newest binding first. -/
abbrev Dict (α β : Type) := List (α × β)

variable {α β : Type} [DecidableEq α]

/-- `d.get(k)`. -/
def Dict.get (d : Dict α β) (k : α) : Option β :=
  match d with
  | [] => none
  | (a, b) :: r => if a = k then some b else Dict.get r k

/-- `d[k] = v`. -/
def Dict.set (d : Dict α β) (k : α) (v : β) : Dict α β := (k, v) :: d

@[simp] theorem Dict.get_nil (k : α) : Dict.get ([] : Dict α β) k = none := rfl

theorem Dict.get_set (d : Dict α β) (k k' : α) (v : β) :
    (d.set k v).get k' = if k = k' then some v else d.get k' := rfl

theorem Dict.get_mem {d : Dict α β} {k : α} {v : β} (h : d.get k = some v) : (k, v) ∈ d := by
  induction d with
  | nil => cases h
  | cons p r ih =>
    obtain ⟨a, b⟩ := p
    unfold Dict.get at h
    split at h
    · rename_i hk; cases h; subst hk; simp
    · exact List.mem_cons_of_mem _ (ih h)

end Verif
